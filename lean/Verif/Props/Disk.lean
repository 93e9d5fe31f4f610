import Verif.Lemmas.DiskLoad
import Verif.Props.Save

/-!
# Grids with an output folder (C55, C59, C69)

`SRDisk`, `VRDisk`: the states of a grid with an output folder after any sequence of `add_points`, `remove_points`, `grid` and queries (Spec/DiskHistories.lean);
`d.now` is the contents of the folder.  `Grid.loadD` reads a folder.
-/

namespace Bathy
open Grid

variable {env : Env} {b : Backend} {size sub : ℚ} {bs : Bool} {fl : Fields} {F : Family} {s exact : Bool} {A : Store}

/-! ## C69 -/

/-- **C69** With an output folder `add_points`, `remove_points` and `grid` do the same to a single resolution grid as without; after `grid` only layers that
were made to answer queries may be forgotten. -/
theorem C69_folder_same_sr (hs : 0 < size) {g : Grid Tile} {d : Disk (Root TileFolder)} (h : SRDisk env b size bs fl F s exact g d A) :
    (∀ pts c a, (g.addPoints ⟨fl, pts⟩ c a).err = none →
      (addPointsD b ⟨fl, pts⟩ c a (g, d)).err = none ∧ (addPointsD b ⟨fl, pts⟩ c a (g, d)).st.1 = (g.addPoints ⟨fl, pts⟩ c a).st) ∧
    (∀ c, (g.removePoints c).err = none → (removePointsD b c (g, d)).err = none ∧ (removePointsD b c (g, d)).st.1 = (g.removePoints c).st) ∧
    (∀ a F' dask, a.alg.family = some F' → F' = F ∨ a.clear = true → (gridWithD env b a dask (g, d)).err = (g.gridWith env a dask).err ∧
      ((g.gridWith env a dask).err = none → Requeried env (g.gridWith env a dask).st (gridWithD env b a dask (g, d)).st.1)) := by
  obtain ⟨h1, h2⟩ := sr_disk hs h
  refine ⟨fun pts c a hok => ?_, fun c hok => ?_, fun a F' dask ha hF => ⟨?_, fun hok => ?_⟩⟩
  · obtain ⟨d', e, -⟩ := disk_add (closed_tile env hs) (tileDisk env size 0 bs fl hs) hs (fun _ => growInv_blank _ _) rfl b h1 h2 hok
    rw [e]; exact ⟨rfl, rfl⟩
  · obtain ⟨d', e, -⟩ := disk_remove (closed_tile env hs) (tileDisk env size 0 bs fl hs) hs (fun _ => growInv_blank _ _) rfl b h1 h2 hok
    rw [e]; exact ⟨rfl, rfl⟩
  · exact disk_grid_err (closed_tile env hs) (tileDisk env size 0 bs fl hs) hs (fun _ => growInv_blank _ _) rfl b h1 h2 ha hF dask
  · obtain ⟨v, d', e, e2, -⟩ := disk_grid (closed_tile env hs) (tileDisk env size 0 bs fl hs) hs (fun _ => growInv_blank _ _) rfl b h1 h2 ha hF hok
    rw [e]; exact e2

/-- **C69** (variable resolution) -/
theorem C69_folder_same_vr (hs : 0 < size) (hpow : isPowerOfTwo sub = true) {g : Grid (Grid Tile)} {d : Disk (Root (GridFolder TileFolder))}
    (h : VRDisk env b size sub bs fl F s exact g d A) :
    (∀ pts c a, (g.addPoints ⟨fl, pts⟩ c a).err = none →
      (addPointsD b ⟨fl, pts⟩ c a (g, d)).err = none ∧ (addPointsD b ⟨fl, pts⟩ c a (g, d)).st.1 = (g.addPoints ⟨fl, pts⟩ c a).st) ∧
    (∀ c, (g.removePoints c).err = none → (removePointsD b c (g, d)).err = none ∧ (removePointsD b c (g, d)).st.1 = (g.removePoints c).st) ∧
    (∀ a F' dask, a.alg.family = some F' → F' = F ∨ a.clear = true → (gridWithD env b a dask (g, d)).err = (g.gridWith env a dask).err ∧
      ((g.gridWith env a dask).err = none → Requeried env (g.gridWith env a dask).st (gridWithD env b a dask (g, d)).st.1)) := by
  obtain ⟨h1, h2⟩ := vr_disk hs hpow h
  have hC := closed_sub (bs := bs) (closed_tile (fl := fl) env (isPowerOfTwo_pos hpow)) hs hpow
  have S := subDisk (size := size) (bs := bs) (tileDisk env sub 0 false fl (isPowerOfTwo_pos hpow)) hs hpow
  refine ⟨fun pts c a hok => ?_, fun c hok => ?_, fun a F' dask ha hF => ⟨?_, fun hok => ?_⟩⟩
  · obtain ⟨d', e, -⟩ := disk_add hC S hs (fun _ => growInv_blank _ _) rfl b h1 h2 hok
    rw [e]; exact ⟨rfl, rfl⟩
  · obtain ⟨d', e, -⟩ := disk_remove hC S hs (fun _ => growInv_blank _ _) rfl b h1 h2 hok
    rw [e]; exact ⟨rfl, rfl⟩
  · exact disk_grid_err hC S hs (fun _ => growInv_blank _ _) rfl b h1 h2 ha hF dask
  · obtain ⟨v, d', e, e2, -⟩ := disk_grid hC S hs (fun _ => growInv_blank _ _) rfl b h1 h2 ha hF hok
    rw [e]; exact e2

/-! ### examples -/

/-- a single resolution grid with its folder: add, add, grid, remove -/
def diskSR (b : Backend) : Grid Tile × Disk (Root TileFolder) :=
  (removePointsD b "a" (gridWithD demoEnv b { alg := .mean, res := some 2 } (some 2) (addPointsD b ⟨demoFields, demoB⟩ "b" {}
    (addPointsD b ⟨demoFields, demoA⟩ "a" {} (newSR 16 false, ⟨none, []⟩)).st).st).st).st

/-- a variable resolution grid with its folder: add, add, grid, remove -/
def diskVR (b : Backend) : Grid (Grid Tile) × Disk (Root (GridFolder TileFolder)) :=
  (removePointsD b "a" (gridWithD demoEnv b { alg := .mean, res := some 2 } (some 2) (addPointsD b ⟨demoFields, demoB⟩ "b" {}
    (addPointsD b ⟨demoFields, demoA⟩ "a" {} (newVR 32 16 false, ⟨none, []⟩)).st).st).st).st

theorem diskSR_history (b : Backend) : SRDisk demoEnv b 16 false demoFields .plain false true (diskSR b).1 (diskSR b).2 [("b", demoB)] :=
  ((((DiskHistory.new .plain ⟨none, []⟩ rfl).add demoA "a" {} (by decide +kernel)).add demoB "b" {} (by cases b <;> decide +kernel)).grid { alg := .mean, res := some 2 } rfl (some 2)
    (by cases b <;> decide +kernel)).remove "a" (by cases b <;> decide +kernel)

theorem diskVR_history (b : Backend) : VRDisk demoEnv b 32 16 false demoFields .plain false true (diskVR b).1 (diskVR b).2 [("b", demoB)] :=
  ((((DiskHistory.new .plain ⟨none, []⟩ rfl).add demoA "a" {} (by decide +kernel)).add demoB "b" {} (by cases b <;> decide +kernel)).grid { alg := .mean, res := some 2 } rfl (some 2)
    (by cases b <;> decide +kernel)).remove "a" (by cases b <;> decide +kernel)

example (b : Backend) : (addPointsD b ⟨demoFields, demoC⟩ "c" {} (diskSR b)).st.1 = ((diskSR b).1.addPoints ⟨demoFields, demoC⟩ "c" {}).st :=
  ((C69_folder_same_sr (by norm_num) (diskSR_history b)).1 demoC "c" {} (by cases b <;> decide +kernel)).2

example (b : Backend) : (removePointsD b "b" (diskVR b)).st.1 = ((diskVR b).1.removePoints "b").st :=
  ((C69_folder_same_vr (by norm_num) (by decide +kernel) (diskVR_history b)).2.1 "b" (by cases b <;> decide +kernel)).2

/-! ## C55 -/

/-- **C55** (part) The folder of a single resolution grid that holds soundings loads to the grid in memory.  After `add_points` the attributes `number_of_tiles`
and `mean_depth` may be old (`exact = false`), after `remove_points` and `grid` nothing differs. -/
theorem C55_folder_loads_sr_partial (hs : 0 < size) {g : Grid Tile} {d : Disk (Root TileFolder)} (h : SRDisk env b size bs fl F s exact g d A) (hA : A ≠ []) :
    ∃ u, loadD d.now = .ok u ∧ g.Reloaded exact u ∧ (Holds.all u).Perm A.allPts ∧ ∀ c, (Holds.under u c).Perm (A.ptsOf c) := by
  obtain ⟨u, h1, h2⟩ := sr_loads hs h hA
  have hi := (sr_inv hs (sr_disk hs h).1).1
  have P := tilePts env F size 0 bs fl hs
  exact ⟨u, h1, h2, (List.Perm.of_eq (LawfulReload.all h2)).trans (grow_all P hs hi), fun c => (List.Perm.of_eq (LawfulReload.under h2 c)).trans (grow_under P hs hi c)⟩

/-- **C55** (part) A variable resolution grid loads to the grid in memory, but `number_of_tiles` and `mean_depth` of the grid and of its subgrids may be old, and
where there is no subgrid in memory there may be an empty one. -/
theorem C55_folder_loads_vr_partial (hs : 0 < size) (hpow : isPowerOfTwo sub = true) {g : Grid (Grid Tile)} {d : Disk (Root (GridFolder TileFolder))}
    (h : VRDisk env b size sub bs fl F s exact g d A) (hA : A ≠ []) :
    ∃ u, loadD d.now = .ok u ∧ g.Reloaded false u ∧ (Holds.all u).Perm A.allPts ∧ ∀ c, (Holds.under u c).Perm (A.ptsOf c) := by
  obtain ⟨u, h1, h2⟩ := vr_loads hs hpow h hA
  have hi := (vr_inv hs hpow (vr_disk hs hpow h).1).1
  have P := subPts (size := size) (bs := bs) _ (tilePts env F sub 0 false fl (isPowerOfTwo_pos hpow)) hs hpow
  exact ⟨u, h1, h2, (List.Perm.of_eq (LawfulReload.all h2)).trans (grow_all P hs hi), fun c => (List.Perm.of_eq (LawfulReload.under h2 c)).trans (grow_under P hs hi c)⟩

/-- **C55** A single resolution grid that was loaded after a removal or a gridding is, with its folder, in one of the states reached without loading: what is proved
for these states (`C69`, and all that is proved for `SRHistory`) holds for it. -/
theorem C55_loaded_reachable_sr (hs : 0 < size) {g u : Grid Tile} {d : Disk (Root TileFolder)} (h : SRDisk env b size bs fl F s true g d A) (hA : A ≠ [])
    (hu : loadD d.now = .ok u) : SRDisk env b size bs fl F s true u d A ∧ SRHistory env size bs fl F s u A := by
  obtain ⟨v, h1, h2⟩ := sr_loads hs h hA
  rw [hu] at h1
  cases h1
  have hg := (sr_disk hs h).1
  have hq : Requeried env g u := requeried_reloaded (fun _ t v _ => requeried_tile env t v) h2 (by
    obtain ⟨T, hT⟩ := (sr_storable hs hg hA).shape
    rw [hT.tiles]; simp)
  exact ⟨diskHistory_requeried h hq, history_requeried hg hq⟩

/-- **C55** The folder of a single resolution grid that was emptied loads to a grid without tiles. -/
theorem C55_emptied_sr (hs : 0 < size) {g : Grid Tile} {d : Disk (Root TileFolder)} (h : SRDisk env b size bs fl F s exact g d []) (hd : d.now ≠ none) :
    ∃ u : Grid Tile, loadD d.now = .ok u ∧ u.isEmpty = true := by
  obtain ⟨h1, h2⟩ := sr_disk hs h
  rcases h2 with ⟨e, -⟩ | h2
  · exact absurd e hd
  · have h2' := h2
    obtain ⟨F', e, -⟩ := h2'
    rw [e] at h2 ⊢
    have he : g.isEmpty = true := by
      rcases (sr_inv hs h1).1.body with ⟨-, e, -⟩ | ⟨e, -⟩
      · unfold isEmpty; rw [e]
      · exact absurd rfl e
    obtain ⟨u, h3, h4, -⟩ := load_leftover (τ := Tile) rfl (leftover_of he h2)
    exact ⟨u, h3, h4⟩

example (b : Backend) : ∃ u, loadD (diskSR b).2.now = .ok u ∧ (diskSR b).1.Reloaded true u ∧ (Holds.all u).Perm (Store.allPts [("b", demoB)]) ∧
    ∀ c, (Holds.under u c).Perm (Store.ptsOf [("b", demoB)] c) :=
  C55_folder_loads_sr_partial (by norm_num) (diskSR_history b) (by simp)

example (b : Backend) : ∃ u, loadD (diskVR b).2.now = .ok u ∧ (diskVR b).1.Reloaded false u ∧ (Holds.all u).Perm (Store.allPts [("b", demoB)]) ∧
    ∀ c, (Holds.under u c).Perm (Store.ptsOf [("b", demoB)] c) :=
  C55_folder_loads_vr_partial (by norm_num) (by decide +kernel) (diskVR_history b) (by simp)

example (b : Backend) (u : Grid Tile) (hu : loadD (diskSR b).2.now = .ok u) : SRHistory demoEnv 16 false demoFields .plain false u [("b", demoB)] :=
  (C55_loaded_reachable_sr (by norm_num) (diskSR_history b) (by simp) hu).2

example (b : Backend) : ∃ u : Grid Tile, loadD (removePointsD b "b" (diskSR b)).st.2.now = .ok u ∧ u.isEmpty = true :=
  C55_emptied_sr (by norm_num) ((diskSR_history b).remove "b" (by cases b <;> decide +kernel)) (by cases b <;> decide +kernel)

/-- the demo grid after the first `add_points` -/
def diskOne : Grid Tile × Disk (Root TileFolder) := (addPointsD .numpy ⟨demoFields, demoA⟩ "a" {} (newSR 16 false, ⟨none, []⟩)).st

/-- **C55 does not hold for every history.**  After the first `add_points` the grid in the folder has no `number_of_tiles` and the mean depth 0 (`_save_grid` is called before
they are computed).  The loaded grid does not behave like the grid in memory: `remove_points` raises TypeError, and `grid` with the resolution by depth raises ValueError. -/
theorem C55_violated :
    SRDisk demoEnv .numpy 16 false demoFields .plain false false diskOne.1 diskOne.2 [("a", demoA)] ∧
    diskOne.1.numberOfTiles = some 3 ∧ diskOne.1.meanDepth = 17667 / 1000 ∧ (diskOne.1.removePoints "a").err = none ∧
    (diskOne.1.grid demoEnv { alg := .mean, res := none, mode := .depth }).err = none ∧
    ∃ u : Grid Tile, loadD diskOne.2.now = .ok u ∧ u.numberOfTiles = none ∧ u.meanDepth = 0 ∧ (u.removePoints "a").err = some .typeError ∧
      (u.grid demoEnv { alg := .mean, res := none, mode := .depth }).err = some .valueError :=
  ⟨(DiskHistory.new .plain ⟨none, []⟩ rfl).add demoA "a" {} (by decide +kernel), by decide +kernel, by decide +kernel, by decide +kernel, by decide +kernel,
    Except.exists_ok (by decide +kernel)⟩

/-! ## C59 -/

/-- **C59** (part) Where a variable resolution grid with an output folder has no tile, the grid that is loaded from the folder has no tile or one without soundings: the
soundings of a tile that was emptied do not come back.  Missing: that there is no tile. -/
theorem C59_emptied_tile_partial (hs : 0 < size) (hpow : isPowerOfTwo sub = true) {g : Grid (Grid Tile)} {d : Disk (Root (GridFolder TileFolder))}
    (h : VRDisk env b size sub bs fl F s exact g d A) (hA : A ≠ []) {k : Nat} (hk : g.tile? k = some none) :
    ∃ u : Grid (Grid Tile), loadD d.now = .ok u ∧
      (u.tile? k = some none ∨ ∃ v : Grid Tile, u.tile? k = some (some v) ∧ v.isEmpty = true ∧ Holds.all v = [] ∧ ∀ c, Holds.under v c = []) := by
  obtain ⟨u, h1, h2⟩ := vr_loads hs hpow h hA
  refine ⟨u, h1, ?_⟩
  rcases h2.missing k hk with h3 | ⟨-, v, h3, h4⟩
  · exact Or.inl h3
  · exact Or.inr ⟨v, h3, h4.empty, LawfulReload.empty h4⟩

/-- **C59** A tile of a single resolution grid that was emptied is gone after loading. -/
theorem C59_emptied_tile_sr (hs : 0 < size) {g : Grid Tile} {d : Disk (Root TileFolder)} (h : SRDisk env b size bs fl F s true g d A) (hA : A ≠ [])
    {k : Nat} (hk : g.tile? k = some none) : ∃ u : Grid Tile, loadD d.now = .ok u ∧ u.tile? k = some none := by
  obtain ⟨u, h1, h2⟩ := sr_loads hs h hA
  refine ⟨u, h1, ?_⟩
  rcases h2.missing k hk with h3 | ⟨h3, -⟩
  · exact h3
  · cases h3

example (b : Backend) : ∃ u : Grid Tile, loadD (diskSR b).2.now = .ok u ∧ u.tile? 1 = some none :=
  C59_emptied_tile_sr (by norm_num) (diskSR_history b) (by simp) (by cases b <;> decide +kernel)

/-- a variable resolution grid with three subgrids, the middle one with soundings of container `b` only; `b` is removed -/
def diskGap : Grid (Grid Tile) × Disk (Root (GridFolder TileFolder)) :=
  (removePointsD .numpy "b" (addPointsD .numpy ⟨demoFields, [⟨40, 5, 10, 1, 1⟩]⟩ "b" {}
    (addPointsD .numpy ⟨demoFields, [⟨3, 5, 10, 1, 1⟩, ⟨70, 5, 11, 1, 1⟩]⟩ "a" {} (newVR 32 16 false, ⟨none, []⟩)).st).st).st

theorem diskGap_history : VRDisk demoEnv .numpy 32 16 false demoFields .plain false true diskGap.1 diskGap.2 [("a", [⟨3, 5, 10, 1, 1⟩, ⟨70, 5, 11, 1, 1⟩])] :=
  (((DiskHistory.new .plain ⟨none, []⟩ rfl).add [⟨3, 5, 10, 1, 1⟩, ⟨70, 5, 11, 1, 1⟩] "a" {} (by decide +kernel)).add [⟨40, 5, 10, 1, 1⟩] "b" {} (by decide +kernel)).remove "b"
    (by decide +kernel)

example : ∃ u : Grid (Grid Tile), loadD diskGap.2.now = .ok u ∧
    (u.tile? 1 = some none ∨ ∃ v : Grid Tile, u.tile? 1 = some (some v) ∧ v.isEmpty = true ∧ Holds.all v = [] ∧ ∀ c, Holds.under v c = []) :=
  C59_emptied_tile_partial (by norm_num) (by decide +kernel) diskGap_history (by simp) (by decide +kernel)

/-- **C59 does not hold.**  The folder of a subgrid that was emptied is not removed; the loaded grid has an empty subgrid there, and gridding it raises ValueError, while
the grid in memory can be gridded. -/
theorem C59_violated :
    VRDisk demoEnv .numpy 32 16 false demoFields .plain false true diskGap.1 diskGap.2 [("a", [⟨3, 5, 10, 1, 1⟩, ⟨70, 5, 11, 1, 1⟩])] ∧
    diskGap.1.tile? 1 = some none ∧ (diskGap.1.grid demoEnv { alg := .mean, res := some 2 }).err = none ∧
    ∃ u : Grid (Grid Tile), loadD diskGap.2.now = .ok u ∧ (∃ v, u.tile? 1 = some (some v)) ∧ (u.grid demoEnv { alg := .mean, res := some 2 }).err = some .valueError := by
  refine ⟨diskGap_history, by decide +kernel, by decide +kernel, ?_⟩
  obtain ⟨u, h1, h2, h3⟩ := Except.exists_ok (x := loadD (τ := Grid Tile) diskGap.2.now)
    (p := fun u => u.tile? 1 ≠ some none ∧ u.tile? 1 ≠ none ∧ (u.grid demoEnv { alg := .mean, res := some 2 }).err = some .valueError) (by decide +kernel)
  refine ⟨u, h1, ?_, h3.2⟩
  cases hv : u.tile? 1 with
  | none => exact absurd hv h3.1
  | some o =>
    cases o with
    | none => exact absurd hv h2
    | some v => exact ⟨v, rfl⟩

end Bathy
