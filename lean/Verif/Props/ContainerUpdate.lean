import Verif.Lemmas.ReadySpec
import Verif.Props.UpdateSurface

/-!
# C118 and C120 for grids that are kept up to date

The surfaces of slopes and of single containers, for grids that were gridded once and are brought up to date by calls that leave out the unchanged tiles.
-/

namespace Bathy
open Grid

variable {env : Env} {size sub : ℚ} {bs : Bool} {fl : Fields} {F F' : Family} {s : Bool} {A A' : Store} {a a0 : GridCall} {r : ℚ} {d0 da : Option Nat}

/-- single resolution grids that are kept up to date: all tiles can be asked, also after further queries -/
theorem kept_ready_sr (hs : 0 < size) {g g1 : Grid Tile} (h : SRHistory env size bs fl F s g A) (ha0 : a0.alg.family = some F') (hr0 : a0.res = some r)
    (hv0 : a0.regrid = .full ∨ a0.clear = true) (hF : F' = F ∨ a0.clear = true) (hok0 : (g.gridWith env a0 d0).err = none)
    (hsince : Since env fl a0.alg r (g.gridWith env a0 d0).st A g1 A') (ha : a.alg = a0.alg) (har : a.res = some r) (hok : (g1.gridWith env a da).err = none)
    {v : Grid Tile} (hu : Requeried env (g1.gridWith env a da).st v) :
    GrowInv (readySpec env F' size 0 bs fl hs a0.alg r) v A' ∧ A' ≠ [] ∧ ∀ u, v.Leaf u → ContReady a0.alg r u := by
  have k1 : GrowInv (readySpec env F' size 0 bs fl hs a0.alg r) (g.gridWith env a0 d0).st A :=
    grow_did (sr_inv hs h).1 (fun hB hd => (ready_full hs ha0 r).did rfl hr0 ⟨hv0, hF⟩ hB hd) hok0
  have inv : ∀ {v B}, Since env fl a0.alg r (g.gridWith env a0 d0).st A v B → GrowInv (readySpec env F' size 0 bs fl hs a0.alg r) v B :=
    fun hv => since_inv hs (readySpec_query hs) (ready_update hs ha0 r) k1 hv
  have k2 := inv hsince
  exact ⟨inv (since_requeried (hsince.grid a ha har da hok) hu), store_ne k2 hok,
    leaves_requeried (τ := Tile) ready_leaf hu fun t ht => leafDid_grid (leafDid_ready hs ha0 r) k2 ha har hok t ht⟩

/-- the same for variable resolution grids -/
theorem kept_ready_vr (hs : 0 < size) (hsub : isPowerOfTwo sub = true) {g g1 : Grid (Grid Tile)} (h : VRHistory env size sub bs fl F s g A) (ha0 : a0.alg.family = some F') (hr0 : a0.res = some r)
    (hv0 : a0.regrid = .full ∨ a0.clear = true) (hF : F' = F ∨ a0.clear = true) (hok0 : (g.gridWith env a0 d0).err = none)
    (hsince : Since env fl a0.alg r (g.gridWith env a0 d0).st A g1 A') (ha : a.alg = a0.alg) (har : a.res = some r) (hok : (g1.gridWith env a da).err = none)
    {v : Grid (Grid Tile)} (hu : Requeried env (g1.gridWith env a da).st v) :
    GrowInv (subSpec (bs := bs) (readySpec env F' sub 0 false fl (isPowerOfTwo_pos hsub) a0.alg r) hs hsub) v A' ∧ A' ≠ [] ∧ ∀ u, v.Leaf u → ContReady a0.alg r u := by
  have hp := isPowerOfTwo_pos hsub
  have k1 : GrowInv (subSpec (bs := bs) (readySpec env F' sub 0 false fl hp a0.alg r) hs hsub) (g.gridWith env a0 d0).st A :=
    grow_did (vr_inv hs hsub h).1 (fun hB hd => (regrids_sub (ready_full hp ha0 r) hs hsub).did rfl hr0 ⟨hv0, hF⟩ hB hd) hok0
  have inv : ∀ {v B}, Since env fl a0.alg r (g.gridWith env a0 d0).st A v B → GrowInv (subSpec (bs := bs) (readySpec env F' sub 0 false fl hp a0.alg r) hs hsub) v B :=
    fun hv => since_inv hs (sub_query (readySpec_query hp) hs hsub) (regrids_sub (ready_update hp ha0 r) hs hsub) k1 hv
  have k2 := inv hsince
  exact ⟨inv (since_requeried (hsince.grid a ha har da hok) hu), store_ne k2 hok,
    leaves_requeried (τ := Grid Tile) (fun t u hq => leaves_queried (τ := Tile) ready_leaf hq) hu
      fun t ht => leafDid_grid (leafDid_sub (leafDid_ready hp ha0 r) hs hsub) k2 ha har hok t ht⟩

/-- **C120** (single resolution grids, kept up to date): the grid is gridded by mean or shoalest at a resolution that divides the tile size, all tiles.  After that soundings are added
and removed, layers and containers are looked at and the grid is brought up to date, in any order and number.  After one more `grid` call, which may leave out the unchanged tiles, and any
queries, `get_layers_by_name` asked for a container returns the surface of the soundings that are there under this name. -/
theorem C120_update_surface_sr (hs : 0 < size) {g g1 : Grid Tile} (h : SRHistory env size bs fl F s g A) (ha0 : a0.alg = .mean ∨ a0.alg = .shoalest) (hr0 : a0.res = some r)
    (hv0 : a0.regrid = .full ∨ a0.clear = true) (hF : F = .plain ∨ a0.clear = true) {n : Nat} (hn : size = n * r) (hok0 : (g.gridWith env a0 d0).err = none)
    (hsince : Since env fl a0.alg r (g.gridWith env a0 d0).st A g1 A') (ha : a.alg = a0.alg) (har : a.res = some r) (hok : (g1.gridWith env a da).err = none)
    {v : Grid Tile} (hu : Requeried env (g1.gridWith env a da).st v) (c : String) (nodata : Option ℚ) (zUp : Bool) :
    ∃ e o, v.extents = some e ∧ (v.getLayersByName env [.cont c] (some r) nodata zUp).2 = .ok o ∧ ContainerShown a0.alg (A'.ptsOf c) r nodata e o := by
  have hrp := pos_of_mul hs hn
  obtain ⟨k1, k2, k3⟩ := kept_ready_sr hs h (plain_family ha0).1 hr0 hv0 (hF.imp Eq.symm id) hok0 hsince ha har hok hu
  obtain ⟨e, o, j1, j2, j3, j4⟩ := Grid.grow_showsOf (part_ptsOf c) ((showsOf_cont ha0 hs hrp hn c nodata).mono (C' := readySpec env .plain size 0 bs fl hs a0.alg r) (fun h => h.1)) k1 hs k2 k3 hrp hn (cont_fill ha0 c nodata) zUp
  exact ⟨e, _, j1, j2, containerShown_of j3 j4⟩

/-- **C120** (variable resolution grids, kept up to date) -/
theorem C120_update_surface_vr (hs : 0 < size) (hsub : isPowerOfTwo sub = true) {q : Nat} (hdiv : size = (q : ℚ) * sub) {g g1 : Grid (Grid Tile)} (h : VRHistory env size sub bs fl F s g A)
    (ha0 : a0.alg = .mean ∨ a0.alg = .shoalest) (hr0 : a0.res = some r)
    (hv0 : a0.regrid = .full ∨ a0.clear = true) (hF : F = .plain ∨ a0.clear = true) {n : Nat} (hn : sub = n * r) (hok0 : (g.gridWith env a0 d0).err = none)
    (hsince : Since env fl a0.alg r (g.gridWith env a0 d0).st A g1 A') (ha : a.alg = a0.alg) (har : a.res = some r) (hok : (g1.gridWith env a da).err = none)
    {v : Grid (Grid Tile)} (hu : Requeried env (g1.gridWith env a da).st v) (c : String) (nodata : Option ℚ) (zUp : Bool) :
    ∃ e o, v.extents = some e ∧ (v.getLayersByName env [.cont c] (some r) nodata zUp).2 = .ok o ∧ ContainerShown a0.alg (A'.ptsOf c) r nodata e o := by
  have hsp := isPowerOfTwo_pos hsub
  have hrp := pos_of_mul hsp hn
  obtain ⟨k1, k2, k3⟩ := kept_ready_vr hs hsub h (plain_family ha0).1 hr0 hv0 (hF.imp Eq.symm id) hok0 hsince ha har hok hu
  have S := Grid.showsOf_sub (size := size) (bs := bs) (q := q) (part_ptsOf c)
    ((showsOf_cont (env := env) (F := .plain) (bs := false) (fl := fl) (sub := 0) ha0 hsp hrp hn c nodata).mono (C' := readySpec env .plain sub 0 false fl hsp a0.alg r) (fun h => h.1))
    (fun {x y t B} hrep hQ => ready_cells (hQ t rfl).2.1) hs hsub hdiv hrp hn (cont_fill ha0 c nodata)
  obtain ⟨e, o, j1, j2, j3, j4⟩ := Grid.grow_showsOf (part_ptsOf c) S k1 hs k2 k3 hrp (by rw [hdiv, hn]; push_cast; ring) (cont_fill ha0 c nodata) zUp
  exact ⟨e, _, j1, j2, containerShown_of j3 j4⟩

/-- **C118** (single resolution grids, kept up to date): any algorithm -/
theorem C118_update_surface_sr (hls : LeastSquares env.plane) (hs : 0 < size) {g g1 : Grid Tile} (h : SRHistory env size bs fl F s g A) (ha0 : a0.alg.family = some F') (hr0 : a0.res = some r)
    (hv0 : a0.regrid = .full ∨ a0.clear = true) (hF : F' = F ∨ a0.clear = true) {n : Nat} (hn : size = n * r) (hok0 : (g.gridWith env a0 d0).err = none)
    (hsince : Since env fl a0.alg r (g.gridWith env a0 d0).st A g1 A') (ha : a.alg = a0.alg) (har : a.res = some r) (hok : (g1.gridWith env a da).err = none)
    {v : Grid Tile} (hu : Requeried env (g1.gridWith env a da).st v) (nodata : Option ℚ) (zUp : Bool) {l : Layer} {pick : ℚ × ℚ → ℚ} (hl : IsSlope l pick) :
    ∃ e arr, v.extents = some e ∧ (v.getLayersByName env [l] (some r) nodata zUp).2 = .ok (some [arr]) ∧ SurfaceOf (SlopeCell pick) (fun v => v.or nodata) A'.allPts r e arr := by
  have hrp := pos_of_mul hs hn
  obtain ⟨k1, k2, k3⟩ := kept_ready_sr hs h ha0 hr0 hv0 hF hok0 hsince ha har hok hu
  exact Grid.grow_shows ((shows_slope hls hl hs hrp hn nodata).mono (C' := readySpec env F' size 0 bs fl hs a0.alg r) (fun h => h.1) (Q' := ContReady a0.alg r) (fun _ h => ⟨h.1, h.2.1⟩)) k1 hs k2 k3 hrp hn (slope_fill hl nodata) zUp

/-- **C118** (variable resolution grids, kept up to date) -/
theorem C118_update_surface_vr (hls : LeastSquares env.plane) (hs : 0 < size) (hsub : isPowerOfTwo sub = true) {q : Nat} (hdiv : size = (q : ℚ) * sub) {g g1 : Grid (Grid Tile)}
    (h : VRHistory env size sub bs fl F s g A) (ha0 : a0.alg.family = some F') (hr0 : a0.res = some r)
    (hv0 : a0.regrid = .full ∨ a0.clear = true) (hF : F' = F ∨ a0.clear = true) {n : Nat} (hn : sub = n * r) (hok0 : (g.gridWith env a0 d0).err = none)
    (hsince : Since env fl a0.alg r (g.gridWith env a0 d0).st A g1 A') (ha : a.alg = a0.alg) (har : a.res = some r) (hok : (g1.gridWith env a da).err = none)
    {v : Grid (Grid Tile)} (hu : Requeried env (g1.gridWith env a da).st v) (nodata : Option ℚ) (zUp : Bool) {l : Layer} {pick : ℚ × ℚ → ℚ} (hl : IsSlope l pick) :
    ∃ e arr, v.extents = some e ∧ (v.getLayersByName env [l] (some r) nodata zUp).2 = .ok (some [arr]) ∧ SurfaceOf (SlopeCell pick) (fun v => v.or nodata) A'.allPts r e arr := by
  have hsp := isPowerOfTwo_pos hsub
  have hrp := pos_of_mul hsp hn
  obtain ⟨k1, k2, k3⟩ := kept_ready_vr hs hsub h ha0 hr0 hv0 hF hok0 hsince ha har hok hu
  have S := Grid.shows_sub (size := size) (bs := bs) (q := q)
    ((shows_slope (env := env) (F := F') (bs := false) (fl := fl) (sub := 0) hls hl hsp hrp hn nodata).mono (C' := readySpec env F' sub 0 false fl hsp a0.alg r) (Q' := ContReady a0.alg r)
      (fun h => h.1) (fun _ h => ⟨h.1, h.2.1⟩))
    (fun {x y t B} hrep hQ => ready_cells (hQ t rfl).2.1) hs hsub hdiv hrp hn (slope_fill hl nodata)
  exact Grid.grow_shows S k1 hs k2 k3 hrp (by rw [hdiv, hn]; push_cast; ring) (slope_fill hl nodata) zUp

/-! ## the hypotheses can be met -/

private def base : Grid Tile := (demoSR.gridWith demoEnv { alg := .mean, res := some 2, clear := true } none).st
private def changed : Grid Tile := ((base.removePoints "b").st.addPoints ⟨demoFields, demoA⟩ "a" {}).st
private def updated : Grid Tile := (changed.gridWith demoEnv { alg := .mean, res := some 2, regrid := .update } (some 2)).st

/-- a container is removed, another one is added, and an update is done by workers: the container that was added -/
example : ∃ e o, updated.extents = some e ∧ (updated.getLayersByName demoEnv [.cont "a"] (some 2) none false).2 = .ok o ∧ ContainerShown .mean demoA 2 none e o :=
  C120_update_surface_sr (n := 8) (d0 := none) (da := some 2) (a0 := { alg := .mean, res := some 2, clear := true }) (a := { alg := .mean, res := some 2, regrid := .update }) (by norm_num) demoSR_history (.inl rfl) rfl
    (.inr rfl) (.inr rfl) (by norm_num) (by decide +kernel) ((Since.refl.remove "b" (by decide +kernel)).add demoA "a" {} (by decide +kernel)) rfl rfl (by decide +kernel) .refl "a" none false

private def baseVR : Grid (Grid Tile) := (demoVR.gridWith demoEnv { alg := .shoalest, res := some 1, clear := true } none).st
private def changedVR : Grid (Grid Tile) := ((baseVR.removePoints "b").st.addPoints ⟨demoFields, demoA⟩ "a" {}).st
private def updatedVR : Grid (Grid Tile) := (changedVR.gridWith demoEnv { alg := .shoalest, res := some 1, regrid := .update } none).st

/-- the container that was there before -/
example : ∃ e o, updatedVR.extents = some e ∧ (updatedVR.getLayersByName demoEnv [.cont "c"] (some 1) none false).2 = .ok o ∧ ContainerShown .shoalest demoC 1 none e o :=
  C120_update_surface_vr (n := 16) (q := 2) (d0 := none) (da := none) (a0 := { alg := .shoalest, res := some 1, clear := true }) (a := { alg := .shoalest, res := some 1, regrid := .update })
    (by norm_num) (by decide +kernel) (by norm_num) demoVR_history (.inr rfl) rfl
    (.inr rfl) (.inr rfl) (by norm_num) (by decide +kernel) ((Since.refl.remove "b" (by decide +kernel)).add demoA "a" {} (by decide +kernel)) rfl rfl (by decide +kernel) .refl "c" none false

private def ptsA : List Pt := [⟨1/2, 1/2, 39/2, 1, 2⟩, ⟨3/2, 1/2, 43/2, 3, 4⟩, ⟨1/2, 3/2, 33/2, 1, 1⟩]
private def ptsB : List Pt := [⟨7/2, 5/2, 39/2, 1, 1⟩, ⟨13/2, 7/2, 9, 2, 2⟩]

/-- the hypotheses of `C118_update_surface_sr` -/
example : ∃ env g g1 A', LeastSquares env.plane ∧ (∃ A, SRHistory env 4 false demoFields .plain false g A ∧
      Since env demoFields .mean 2 (g.gridWith env { alg := .mean, res := some 2 } none).st A g1 A') ∧
    (g.gridWith env { alg := .mean, res := some 2 } none).err = none ∧ (g1.gridWith env { alg := .mean, res := some 2, regrid := .update } none).err = none ∧ A'.allPts = ptsA ++ ptsB := by
  refine ⟨lsEnv, _, _, _, leastSquares_exists.choose_spec, ⟨_, (GridHistory.new .plain).add ptsA "a" {} (by decide +kernel), Since.refl.add ptsB "b" {} (by decide +kernel)⟩, ?_⟩
  decide +kernel

/-- the hypotheses of `C118_update_surface_vr` -/
example : ∃ env g g1 A', LeastSquares env.plane ∧ (∃ A, VRHistory env 8 4 false demoFields .plain false g A ∧
      Since env demoFields .mean 2 (g.gridWith env { alg := .mean, res := some 2 } none).st A g1 A') ∧
    (g.gridWith env { alg := .mean, res := some 2 } none).err = none ∧ (g1.gridWith env { alg := .mean, res := some 2, regrid := .update } none).err = none ∧ A'.allPts = ptsA ++ ptsB := by
  refine ⟨lsEnv, _, _, _, leastSquares_exists.choose_spec, ⟨_, (GridHistory.new .plain).add ptsA "a" {} (by decide +kernel), Since.refl.add ptsB "b" {} (by decide +kernel)⟩, ?_⟩
  decide +kernel

end Bathy
