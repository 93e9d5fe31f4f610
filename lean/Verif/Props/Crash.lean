import Verif.Lemmas.Crash
import Verif.Props.Disk

/-!
# A process that stops while a grid with an output folder is changed (C57, C58)
-/

namespace Bathy
open Grid

variable {env : Env} {b : Backend} {size sub : ℚ} {bs : Bool} {fl : Fields} {F : Family} {s exact : Bool} {A : Store}

/-! ## C57 -/

/-- **C57** (part) If the process stops in `add_points` between the writes of two tiles, the folder loads, to a grid with all the soundings it had before; of the container that
was being added there is a part.  Missing: a stop while the metadata or a tile is being written, see `C57_violated`. -/
theorem C57_stopped_add_sr_partial (hs : 0 < size) {g : Grid Tile} {d : Disk (Root TileFolder)} (h : SRDisk env b size bs fl F s exact g d A) {pts : List Pt} {c : String} {a : AddArgs}
    (hok : (g.addPoints ⟨fl, pts⟩ c a).err = none) (m : Nat) :
    ∃ u : Grid Tile, loadD (addStoppedD b ⟨fl, pts⟩ c a m (g, d)).st.2.now = .ok u ∧ (∀ n, n ≠ c → (Holds.under u n).Perm (A.ptsOf n)) ∧ (Holds.under u c).Subperm pts :=
  sr_add_stopped hs h hok m

/-- **C57** (part) the same for variable resolution grids, between the writes of two subgrids -/
theorem C57_stopped_add_vr_partial (hs : 0 < size) (hpow : isPowerOfTwo sub = true) {g : Grid (Grid Tile)} {d : Disk (Root (GridFolder TileFolder))}
    (h : VRDisk env b size sub bs fl F s exact g d A) {pts : List Pt} {c : String} {a : AddArgs} (hok : (g.addPoints ⟨fl, pts⟩ c a).err = none) (m : Nat) :
    ∃ u : Grid (Grid Tile), loadD (addStoppedD b ⟨fl, pts⟩ c a m (g, d)).st.2.now = .ok u ∧ (∀ n, n ≠ c → (Holds.under u n).Perm (A.ptsOf n)) ∧
      (Holds.under u c).Subperm pts :=
  vr_add_stopped hs hpow h hok m

example (b : Backend) (m : Nat) : ∃ u : Grid Tile, loadD (addStoppedD b ⟨demoFields, demoA⟩ "d" {} m (diskSR b)).st.2.now = .ok u ∧
    (∀ n, n ≠ "d" → (Holds.under u n).Perm (Store.ptsOf [("b", demoB)] n)) ∧ (Holds.under u "d").Subperm demoA :=
  C57_stopped_add_sr_partial (by norm_num) (diskSR_history b) (by cases b <;> decide +kernel) m

example (b : Backend) (m : Nat) : ∃ u : Grid (Grid Tile), loadD (addStoppedD b ⟨demoFields, demoA⟩ "d" {} m (diskVR b)).st.2.now = .ok u ∧
    (∀ n, n ≠ "d" → (Holds.under u n).Perm (Store.ptsOf [("b", demoB)] n)) ∧ (Holds.under u "d").Subperm demoA :=
  C57_stopped_add_vr_partial (by norm_num) (by decide +kernel) (diskVR_history b) (by cases b <;> decide +kernel) m

/-- stopping between two tiles gives one of the states that the call goes through, here in the middle of the call -/
example : (addStoppedD .numpy ⟨demoFields, demoA⟩ "d" {} 1 ((diskSR .numpy).1, ⟨(diskSR .numpy).2.now, []⟩)).st.2.now ∈
      (addPointsD .numpy ⟨demoFields, demoA⟩ "d" {} ((diskSR .numpy).1, ⟨(diskSR .numpy).2.now, []⟩)).st.2.states ∧
    (addStoppedD .numpy ⟨demoFields, demoA⟩ "d" {} 1 ((diskSR .numpy).1, ⟨(diskSR .numpy).2.now, []⟩)).st.2.now ≠
      (addPointsD .numpy ⟨demoFields, demoA⟩ "d" {} ((diskSR .numpy).1, ⟨(diskSR .numpy).2.now, []⟩)).st.2.now := by decide +kernel

/-- **C57 does not hold.**  While the tile of a second container is written there is a moment when the folder does not load and the file of soundings of the tile, which held the first
container, does not exist: its soundings are nowhere on disk. -/
theorem C57_violated :
    SRDisk demoEnv .numpy 16 false demoFields .plain false false diskOne.1 diskOne.2 [("a", demoA)] ∧ (diskOne.1.addPoints ⟨demoFields, demoA⟩ "d" {}).err = none ∧
    ∃ R ∈ (addPointsD .numpy ⟨demoFields, demoA⟩ "d" {} (diskOne.1, ⟨diskOne.2.now, []⟩)).st.2.states, (loadD (τ := Tile) R).isOk = false ∧
      ∃ p ∈ [((0 : ℚ), (0 : ℚ))], ((tileFolder diskOne.2.now p).bind TileFolder.data).isSome = true ∧ (tileFolder R p).isSome = true ∧ (tileFolder R p).bind TileFolder.data = none :=
  ⟨(DiskHistory.new .plain ⟨none, []⟩ rfl).add demoA "a" {} (by decide +kernel), by decide +kernel, by decide +kernel⟩

/-- **C57** (part) what `load` says about a damaged folder, whatever is in it: without the file of the attributes it reports a missing file, with a cut one a value error, and a folder that
does load has a complete file of attributes and all five arrays -/
theorem C57_damaged {τ φ : Type} [DiskLike τ φ] (f : GridFolder φ) :
    (f.info = .absent → loadD (τ := τ) (some f) = .error .environmentError) ∧ (f.info = .cut → loadD (τ := τ) (some f) = .error .valueError) ∧
    ∀ g : Grid τ, loadD (some f) = .ok g → (∃ h, f.info = .full h) ∧ (readArr f.txs).isOk = true ∧ (readArr f.tys).isOk = true ∧ (readArr f.edgesX).isOk = true ∧
      (readArr f.edgesY).isOk = true ∧ (readArr f.mask).isOk = true := by
  refine ⟨fun h => ?_, fun h => ?_, fun g h => ?_⟩
  · simp only [loadD, loadHeader, h]; rfl
  · simp only [loadD, loadHeader, h]; rfl
  · simp only [loadD, loadHeader] at h
    cases hi : f.info with
    | absent => rw [hi] at h; cases h
    | cut => rw [hi] at h; cases h
    | full hd =>
      rw [hi] at h
      refine ⟨⟨hd, rfl⟩, ?_⟩
      cases h1 : readArr f.txs with
      | error e => simp [h1, bind, Except.bind] at h
      | ok a1 =>
      cases h2 : readArr f.tys with
      | error e => simp [h1, h2, bind, Except.bind] at h
      | ok a2 =>
      cases h3 : readArr f.edgesX with
      | error e => simp [h1, h2, h3, bind, Except.bind] at h
      | ok a3 =>
      cases h4 : readArr f.edgesY with
      | error e => simp [h1, h2, h3, h4, bind, Except.bind] at h
      | ok a4 =>
      cases h5 : readArr f.mask with
      | error e => simp [h1, h2, h3, h4, h5, bind, Except.bind] at h
      | ok a5 => exact ⟨rfl, rfl, rfl, rfl, rfl⟩

theorem foldlM_steps {σ α : Type} (I : σ → Prop) {f : σ → α → Except Err σ} (hI : ∀ s x t, I s → f s x = .ok t → I t) {l : List α} {s t : σ} (hs : I s) (h : l.foldlM f s = .ok t) :
    I t ∧ ∀ x ∈ l, ∃ u v, I u ∧ f u x = .ok v := by
  induction l generalizing s with
  | nil =>
    cases h
    exact ⟨hs, fun x hx => absurd hx List.not_mem_nil⟩
  | cons a l ih =>
    rw [List.foldlM_cons] at h
    cases ha : f s a with
    | error e =>
      rw [ha] at h
      cases h
    | ok v =>
      rw [ha] at h
      obtain ⟨h1, h2⟩ := ih (hI s a v hs ha) h
      refine ⟨h1, fun x hx => ?_⟩
      rcases List.mem_cons.1 hx with rfl | hx
      · exact ⟨s, v, hs, ha⟩
      · exact h2 x hx

theorem slots_setTile {τ : Type} (g : Grid τ) (k : Nat) (o : Option τ) : (g.setTile k o).slots = g.slots := by
  unfold slots setTile
  cases hT : g.tiles with
  | none => simp only [hT]
  | some T => simp only [Arr2.setFlat, List.length_set]

/-- a grid that loads has read every folder of a tile -/
private theorem loaded_slot {τ φ : Type} [DiskLike τ φ] {f : GridFolder φ} {g : Grid τ} (h : loadD (some f) = .ok g) {k : Nat} (hk : k < g.slots) {o : ℚ × ℚ}
    (ho : g.tileOrigin k = some o) : ∃ t : Option τ, DiskLike.load (f.tiles.get? o) = .ok t := by
  unfold loadD at h
  simp only at h
  cases hh : (loadHeader f : Except Err (Grid τ)) with
  | error e =>
    rw [hh] at h
    cases h
  | ok g0 =>
    rw [hh] at h
    replace h : (List.range g0.slots).foldlM (loadSlot f) g0 = .ok g := h
    have key := foldlM_steps (fun u : Grid τ => u.slots = g0.slots ∧ ∀ j, u.tileOrigin j = g0.tileOrigin j) (f := loadSlot f) (by
      rintro u x v ⟨h1, h2⟩ hv
      unfold loadSlot at hv
      cases hx : u.tileOrigin x with
      | none =>
        rw [hx] at hv
        cases hv
      | some q =>
        rw [hx] at hv
        simp only at hv
        cases hl : (DiskLike.load (f.tiles.get? q) : Except Err (Option τ)) with
        | error e =>
          rw [hl] at hv
          cases hv
        | ok t =>
          rw [hl] at hv
          cases hv
          exact ⟨(slots_setTile u x t).trans h1, fun j => (setTile_origin u x t j).trans (h2 j)⟩) ⟨rfl, fun _ => rfl⟩ h
    obtain ⟨⟨k1, k2⟩, k3⟩ := key
    obtain ⟨u, v, ⟨-, hu⟩, hv⟩ := k3 k (List.mem_range.2 (by rw [← k1]; exact hk))
    unfold loadSlot at hv
    rw [hu, ← k2, ho] at hv
    simp only at hv
    cases hl : (DiskLike.load (f.tiles.get? o) : Except Err (Option τ)) with
    | error e =>
      rw [hl] at hv
      cases hv
    | ok t => exact ⟨t, rfl⟩

/-- **C57** (part) a damaged tile does not pass unnoticed: if a single resolution grid loads, every tile that has a folder has a complete file of attributes and its soundings -/
theorem C57_damaged_tile {f : GridFolder TileFolder} {g : Grid Tile} (h : loadD (some f) = .ok g) {k : Nat} (hk : k < g.slots) {o : ℚ × ℚ} (ho : g.tileOrigin k = some o) {tf : TileFolder}
    (htf : f.tiles.get? o = some tf) : (∃ m, tf.info = .full m) ∧ (readArr tf.data).isOk = true := by
  obtain ⟨t, hl⟩ := loaded_slot h hk ho
  rw [htf] at hl
  replace hl : Tile.loadTile none .all (some tf) = .ok t := hl
  unfold Tile.loadTile Tile.loadMeta at hl
  cases hi : tf.info with
  | absent =>
    simp only [hi] at hl
    cases hl
  | cut =>
    simp only [hi] at hl
    cases hl
  | full m =>
    refine ⟨⟨m, rfl⟩, ?_⟩
    simp only [hi] at hl
    cases hd : readArr tf.data with
    | ok d => rfl
    | error e =>
      unfold Tile.loadTileData at hl
      rw [hd] at hl
      cases hl

/-- **C57** (part) nor does a damaged subgrid: if a variable resolution grid loads, every subgrid that has a folder has a complete file of attributes and all five arrays, and loads to a grid;
every tile of it that has a folder has a complete file of attributes and its soundings -/
theorem C57_damaged_subgrid {f : GridFolder (GridFolder TileFolder)} {g : Grid (Grid Tile)} (h : loadD (some f) = .ok g) {k : Nat} (hk : k < g.slots) {o : ℚ × ℚ}
    (ho : g.tileOrigin k = some o) {sf : GridFolder TileFolder} (hsf : f.tiles.get? o = some sf) :
    (∃ m, sf.info = .full m) ∧ ((readArr sf.txs).isOk = true ∧ (readArr sf.tys).isOk = true ∧ (readArr sf.edgesX).isOk = true ∧ (readArr sf.edgesY).isOk = true ∧ (readArr sf.mask).isOk = true) ∧
    ∃ t : Grid Tile, loadD (some sf) = .ok t ∧ ∀ j < t.slots, ∀ q tf, t.tileOrigin j = some q → sf.tiles.get? q = some tf → (∃ m, tf.info = .full m) ∧ (readArr tf.data).isOk = true := by
  obtain ⟨t, hl⟩ := loaded_slot h hk ho
  rw [hsf] at hl
  cases hd : (loadD (some sf) : Except Err (Grid Tile)) with
  | error e =>
    replace hl : Except.map some (loadD (some sf) : Except Err (Grid Tile)) = .ok t := hl
    rw [hd] at hl
    cases hl
  | ok v =>
    obtain ⟨h1, h2⟩ := (C57_damaged (τ := Tile) sf).2.2 v hd
    exact ⟨h1, h2, v, rfl, fun j hj q tf hq htf => C57_damaged_tile hd hj hq htf⟩

/-- the hypotheses are met by the folder of a grid with soundings -/
example : (match (diskSR .numpy).2.now, loadD (τ := Tile) (diskSR .numpy).2.now with
    | some f, .ok g => decide (2 < g.slots ∧ g.tileOrigin 2 = some (0, 0)) && (f.tiles.get? (0, 0)).isSome
    | _, _ => false) = true := by decide +kernel

example : (match (diskVR .numpy).2.now, loadD (τ := Grid Tile) (diskVR .numpy).2.now with
    | some f, .ok g => decide (6 < g.slots ∧ g.tileOrigin 6 = some (-32, 64)) && (f.tiles.get? (-32, 64)).isSome
    | _, _ => false) = true := by decide +kernel

/-- such folders are among those a stopped process leaves: the attributes are cut while they are written -/
example : ∃ f : GridFolder TileFolder, some f ∈ (addPointsD .numpy ⟨demoFields, demoA⟩ "d" {} (diskOne.1, ⟨diskOne.2.now, []⟩)).st.2.states ∧ f.info = .cut := by
  have : ∃ R ∈ (addPointsD .numpy ⟨demoFields, demoA⟩ "d" {} (diskOne.1, ⟨diskOne.2.now, []⟩)).st.2.states, (R.map (fun f => decide (f.info = .cut))) = some true := by decide +kernel
  obtain ⟨R, hR, h⟩ := this
  cases R with
  | none => cases h
  | some f => exact ⟨f, hR, by simpa using h⟩

/-! ## C58 -/

/-- **C58** (part) A single resolution grid whose folder is up to date (`exact`: the last call that wrote the attributes was `remove_points` or `grid`).  If the process stops in
`remove_points` between two tiles, at any point, the folder loads; `remove_points` of the loaded grid returns, and then every tile holds the same soundings as after an uninterrupted call, the
attributes are the same, and so is what is in the folder.  Missing: `number_of_tiles` (and `existing_tile_mask`), see `C58_violated`. -/
theorem C58_removed_again_sr_partial (hs : 0 < size) {g : Grid Tile} {d : Disk (Root TileFolder)} (h : SRDisk env b size bs fl F false true g d A) {c : String} (hc : c ∈ A.names) (m : Nat) :
    ∃ (u w : Grid Tile) (d' : Disk (Root TileFolder)), loadD (removeStoppedD b c m (g, d)).st.2.now = .ok u ∧
      removePointsD b c (u, (removeStoppedD b c m (g, d)).st.2) = .ok (w, d') ∧
      (∀ r col n, w.underAt r col n = (g.removePoints c).st.underAt r col n) ∧ w.isEmpty = (g.removePoints c).st.isEmpty ∧
      w = { (g.removePoints c).st with tiles := w.tiles, mask := w.mask, numberOfTiles := w.numberOfTiles } ∧
      ∃ v : Grid Tile, loadD d'.now = .ok v ∧ ∀ n, Holds.under v n = Holds.under w n :=
  sr_remove_stopped hs h hc m

example (b : Backend) (m : Nat) : ∃ (u w : Grid Tile) (d' : Disk (Root TileFolder)), loadD (removeStoppedD b "b" m (diskSR b)).st.2.now = .ok u ∧
    removePointsD b "b" (u, (removeStoppedD b "b" m (diskSR b)).st.2) = .ok (w, d') ∧ ∀ r col n, w.underAt r col n = ((diskSR b).1.removePoints "b").st.underAt r col n := by
  obtain ⟨u, w, d', h1, h2, h3, -⟩ := C58_removed_again_sr_partial (by norm_num) (diskSR_history b) (c := "b") (by simp [Store.names]) m
  exact ⟨u, w, d', h1, h2, h3⟩

/-- a grid with the containers `a` and `b`, gridded, and its folder -/
def diskTwo : Grid Tile × Disk (Root TileFolder) :=
  (gridWithD demoEnv .numpy { alg := .mean, res := some 2 } none (addPointsD .numpy ⟨demoFields, demoB⟩ "b" {} diskOne).st).st

theorem diskTwo_history : SRDisk demoEnv .numpy 16 false demoFields .plain false true diskTwo.1 diskTwo.2 [("a", demoA), ("b", demoB)] :=
  (((DiskHistory.new .plain ⟨none, []⟩ rfl).add demoA "a" {} (by decide +kernel)).add demoB "b" {} (by decide +kernel)).grid { alg := .mean, res := some 2 } rfl none (by decide +kernel)

/-- **C58 does not hold.**  A tile that was emptied before the process stopped is counted in `number_of_tiles` after the second call.  After an `add_points` (here the first one, before
any gridding) the attributes on disk are old, and `remove_points` of the loaded grid raises TypeError. -/
theorem C58_violated :
    (SRDisk demoEnv .numpy 16 false demoFields .plain false true diskTwo.1 diskTwo.2 [("a", demoA), ("b", demoB)] ∧ (diskTwo.1.removePoints "a").st.numberOfTiles = some 2 ∧
      ∃ u : Grid Tile, loadD (removeStoppedD .numpy "a" 7 diskTwo).st.2.now = .ok u ∧ (u.removePoints "a").err = none ∧ (u.removePoints "a").st.numberOfTiles = some 3 ∧
        (u.removePoints "a").st.countTiles = 2) ∧
    (SRDisk demoEnv .numpy 16 false demoFields .plain false false diskOne.1 diskOne.2 [("a", demoA)] ∧ (diskOne.1.removePoints "a").err = none ∧
      ∃ u : Grid Tile, loadD (removeStoppedD .numpy "a" 0 diskOne).st.2.now = .ok u ∧ (u.removePoints "a").err = some .typeError) :=
  ⟨⟨diskTwo_history, by decide +kernel, Except.exists_ok (by decide +kernel)⟩,
    (DiskHistory.new .plain ⟨none, []⟩ rfl).add demoA "a" {} (by decide +kernel), by decide +kernel, Except.exists_ok (by decide +kernel)⟩

end Bathy
