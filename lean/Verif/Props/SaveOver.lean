import Verif.Props.Session

/-!
# C97: saving to a folder that has a grid

`SRReached`, `VRReached` (Spec/Sessions.lean) are sessions in which the grid is also saved to its own output folder, and to folders with older grids all of which is overwritten
(`Grid.Overwritten`, Spec/DiskHistories.lean): there `C87` tells that the output folder loads to the grid in memory whatever is done afterwards.
-/

namespace Bathy
open Grid

variable {env : Env} {b : Backend} {size sub : ℚ} {bs : Bool} {fl : Fields} {F : Family} {s exact : Bool} {A : Store}

/-- **C97** : `save` to the output folder of a single resolution grid that holds soundings does not raise, and a new grid object that loads the folder becomes the grid in memory: also
the attributes that `add_points` writes too early. -/
theorem C97_again_sr (hs : 0 < size) {S : Session Tile TileFolder} (h : SRReached env b size bs fl F s exact S A) (hA : A ≠ []) {p : String} (hp : S.out = some p)
    (g1 : Grid Tile) (out1 : Option String) :
    (S.save b (some p)).err = none ∧ (S.save b (some p)).st.grid = S.grid ∧
    ∃ u, Session.load (some p) ⟨g1, out1, (S.save b (some p)).st.disk⟩ = .ok ⟨u, some p, (S.save b (some p)).st.disk⟩ ∧ S.grid.Reloaded true u := by
  obtain ⟨h1, h2⟩ := reached_sound (fun h => (sr_disk hs h).1) h
  obtain ⟨h3, h4⟩ := h2 p hp
  have hi := (sr_inv hs h1).1
  have hd := inStep_tsync hi (sr_disk hs h4).2
  have hsv : S.save b (some p) = ⟨{ S with out := some p, disk := Session.setFolder S.disk p (saveAllD b S.grid (S.disk p)).st }, (saveAllD b S.grid (S.disk p)).err⟩ := by
    unfold Session.save
    rw [named_some h3]
  have hr := C87_output_folder_sr_partial hs (h.resave hA p hp) hA (p := p) (by rw [hsv]) g1 out1
  rw [hsv] at hr ⊢
  obtain ⟨u, e1, e2, -⟩ := hr
  exact ⟨(tile_resave b (sr_storable hs h1 hA) _ hd).1, rfl, u, e1, e2⟩

/-- **C97** (variable resolution; an empty subgrid may be where the grid has none, as in `C55`) -/
theorem C97_again_vr_partial (hs : 0 < size) (hpow : isPowerOfTwo sub = true) {S : Session (Grid Tile) (GridFolder TileFolder)} (h : VRReached env b size sub bs fl F s exact S A)
    (hA : A ≠ []) {p : String} (hp : S.out = some p) (g1 : Grid (Grid Tile)) (out1 : Option String) :
    (S.save b (some p)).err = none ∧ (S.save b (some p)).st.grid = S.grid ∧
    ∃ u, Session.load (some p) ⟨g1, out1, (S.save b (some p)).st.disk⟩ = .ok ⟨u, some p, (S.save b (some p)).st.disk⟩ ∧ S.grid.Reloaded false u ∧ (Holds.all u).Perm A.allPts := by
  obtain ⟨h1, h2⟩ := reached_sound (fun h => (vr_disk hs hpow h).1) h
  obtain ⟨h3, h4⟩ := h2 p hp
  have hi := (vr_inv hs hpow h1).1
  have hd := inStep_tsync hi (vr_disk hs hpow h4).2
  have hsv : S.save b (some p) = ⟨{ S with out := some p, disk := Session.setFolder S.disk p (saveAllD b S.grid (S.disk p)).st }, (saveAllD b S.grid (S.disk p)).err⟩ := by
    unfold Session.save
    rw [named_some h3]
  have hr := C87_output_folder_vr_partial hs hpow (h.resave hA p hp) hA (p := p) (by rw [hsv]) g1 out1
  rw [hsv] at hr ⊢
  exact ⟨(sub_resave size b (vr_storable hs hpow h1 hA) _ hd).1, rfl, hr⟩

/-- **C97, what is true of it** : a single resolution grid that holds soundings can be saved to a folder with an older grid, and all goes on as if the folder had been new, if the tiles of the
older grid are at places of the grid.  Missing: other folders, see `C97_violated`. -/
theorem C97_over_sr_partial (hs : 0 < size) {S : Session Tile TileFolder} (h : SRReached env b size bs fl F s exact S A) (hA : A ≠ []) {p : String} (hp : p ≠ "")
    (hd : ∀ o f, tileFolder (S.disk p).now o = some f → ∃ k t, S.grid.tile? k = some t ∧ S.grid.tileOrigin k = some o) :
    (S.save b (some p)).err = none ∧ (S.save b (some p)).st.out = some p ∧ SRReached env b size bs fl F s true (S.save b (some p)).st A := by
  obtain ⟨h1, -⟩ := reached_sound (fun h => (sr_disk hs h).1) h
  have ho : S.grid.Overwritten (S.disk p).now := fun o f hf => by
    obtain ⟨k, t, h1, h2⟩ := hd o f hf
    exact ⟨k, t, h1, h2, trivial⟩
  have hr : SRReached env b size bs fl F s true (S.save b (some p)).st A := h.save hA p hp ho
  have hsv : S.save b (some p) = ⟨{ S with out := some p, disk := Session.setFolder S.disk p (saveAllD b S.grid (S.disk p)).st }, (saveAllD b S.grid (S.disk p)).err⟩ := by
    unfold Session.save
    rw [named_some hp]
  rw [hsv] at hr ⊢
  exact ⟨(tile_over b (sr_storable hs h1 hA) _ ho).1, rfl, hr⟩

/-- **C97, what is true of it** (variable resolution): the older grid has to have no subgrids but where the grid has subgrids, and in these no tiles but at places of the subgrid. -/
theorem C97_over_vr_partial (hs : 0 < size) (hpow : isPowerOfTwo sub = true) {S : Session (Grid Tile) (GridFolder TileFolder)} (h : VRReached env b size sub bs fl F s exact S A)
    (hA : A ≠ []) {p : String} (hp : p ≠ "")
    (hd : ∀ o f, tileFolder (S.disk p).now o = some f → ∃ k t, S.grid.tile? k = some (some t) ∧ S.grid.tileOrigin k = some o ∧
      ∀ o' f', f.tiles.get? o' = some f' → ∃ k' t', t.tile? k' = some t' ∧ t.tileOrigin k' = some o') :
    (S.save b (some p)).err = none ∧ (S.save b (some p)).st.out = some p ∧ VRReached env b size sub bs fl F s true (S.save b (some p)).st A := by
  obtain ⟨h1, -⟩ := reached_sound (fun h => (vr_disk hs hpow h).1) h
  have ho : S.grid.Overwritten (S.disk p).now := fun o f hf => by
    obtain ⟨k, t, h1, h2, h3⟩ := hd o f hf
    exact ⟨k, some t, h1, h2, t, rfl, fun o' f' hf' => by
      obtain ⟨k', t', h4, h5⟩ := h3 o' f' hf'
      exact ⟨k', t', h4, h5, trivial⟩⟩
  have hr : VRReached env b size sub bs fl F s true (S.save b (some p)).st A := h.save hA p hp ho
  have hsv : S.save b (some p) = ⟨{ S with out := some p, disk := Session.setFolder S.disk p (saveAllD b S.grid (S.disk p)).st }, (saveAllD b S.grid (S.disk p)).err⟩ := by
    unfold Session.save
    rw [named_some hp]
  rw [hsv] at hr ⊢
  exact ⟨(sub_over size b (vr_storable hs hpow h1 hA) _ ho).1, rfl, hr⟩

/-! ### witnesses -/

/-- an older grid in the folder "one": soundings in two tiles, gridded -/
def olderGrid : Session Tile TileFolder :=
  ((((⟨newSR 16 false, some "one", noFolders⟩ : Session Tile TileFolder).addPoints .numpy ⟨demoFields, [⟨3, 5, 10, 1, 1⟩, ⟨70, 5, 11, 1, 1⟩]⟩ "old" {}).st).gridRun demoEnv .numpy
    { alg := .mean, res := some 8 } none).st

/-- a new grid, made in memory, with soundings in one tile -/
def newerGrid : Session Tile TileFolder :=
  ((⟨newSR 16 false, none, olderGrid.disk⟩ : Session Tile TileFolder).addPoints .numpy ⟨demoFields, [⟨3, 5, 20, 1, 1⟩]⟩ "new" {}).st

/-- the new grid, saved to the folder of the older one -/
def savedOver : Session Tile TileFolder := (newerGrid.save .numpy (some "one")).st

theorem olderGrid_reached : SRReached demoEnv .numpy 16 false demoFields .plain false true olderGrid [("old", [⟨3, 5, 10, 1, 1⟩, ⟨70, 5, 11, 1, 1⟩])] :=
  ((Reached.create .plain "one" noFolders (by decide) rfl).add _ "old" {} (by decide +kernel)).grid { alg := .mean, res := some 8 } rfl none (by decide +kernel)

theorem newerGrid_reached : SRReached demoEnv .numpy 16 false demoFields .plain false false newerGrid [("new", [⟨3, 5, 20, 1, 1⟩])] :=
  (Reached.new .plain _).add _ "new" {} (by decide +kernel)

/-- the depths of a tile at resolution 8 -/
def depthsAt (g : Grid Tile) (k : Nat) : Option (List (Option ℚ)) := ((g.tile? k).join.bind (fun t => (t.cells.get? 8).bind (fun c => c.get? .depth))).map (·.flat)

/-- **C97, violated** : a single resolution grid is saved over an older grid that had one more tile to the east.  1. Soundings are added still further east: the folder loads to a grid with
a sounding of the older grid.  2. A sounding is added in the eastern cell of that tile, and the grid is gridded: no error, but the depth is in the western cell, where the older
grid had its sounding; in the grid without folder it is in the eastern one. -/
theorem C97_violated :
    (savedOver.grid = newerGrid.grid ∧ savedOver.out = some "one" ∧ (newerGrid.save .numpy (some "one")).err = none) ∧
    (∃ S : Session Tile TileFolder, savedOver.addPoints .numpy ⟨demoFields, [⟨100, 5, 20, 1, 1⟩]⟩ "far" {} = .ok S ∧ (⟨70, 5, 11, 1, 1⟩ : Pt) ∉ Holds.all S.grid ∧
      ∃ u : Grid Tile, loadD (S.disk "one").now = .ok u ∧ (⟨70, 5, 11, 1, 1⟩ : Pt) ∈ Holds.all u) ∧
    (∃ (S S' : Session Tile TileFolder) (g g' : Grid Tile), savedOver.addPoints .numpy ⟨demoFields, [⟨78, 5, 20, 1, 1⟩]⟩ "far" {} = .ok S ∧
      S.gridRun demoEnv .numpy { alg := .mean, res := some 8 } none = .ok S' ∧ newerGrid.grid.addPoints ⟨demoFields, [⟨78, 5, 20, 1, 1⟩]⟩ "far" {} = .ok g ∧
      g.grid demoEnv { alg := .mean, res := some 8 } = .ok g' ∧ depthsAt S'.grid 4 = some [some 20, none, none, none] ∧ depthsAt g' 4 = some [none, some 20, none, none]) := by
  have hok : ∀ {σ : Type} (r : Res σ), r.err = none → r = .ok r.st := by
    rintro σ ⟨st, err⟩ h
    cases h
    rfl
  exact ⟨⟨rfl, by decide +kernel, by decide +kernel⟩, ⟨_, hok _ (by decide +kernel), by decide +kernel, Except.exists_ok (by decide +kernel)⟩,
    ⟨_, _, _, _, hok _ (by decide +kernel), hok _ (by decide +kernel), hok _ (by decide +kernel), hok _ (by decide +kernel), by decide +kernel, by decide +kernel⟩⟩

/-! ### examples -/

example (b : Backend) : ((savedTwice b).save b (some "two")).err = none :=
  (C97_again_sr (by norm_num) (savedTwice_reached b) (by simp) (p := "two") rfl (newSR 16 false) none).1

/-- the older grid, made again with all soundings of the new one: its two tiles are at places of the grid -/
def coveringGrid : Session Tile TileFolder :=
  ((⟨newSR 16 false, none, olderGrid.disk⟩ : Session Tile TileFolder).addPoints .numpy ⟨demoFields, [⟨3, 5, 20, 1, 1⟩, ⟨100, 5, 20, 1, 1⟩]⟩ "new" {}).st

theorem coveringGrid_reached : SRReached demoEnv .numpy 16 false demoFields .plain false false coveringGrid [("new", [⟨3, 5, 20, 1, 1⟩, ⟨100, 5, 20, 1, 1⟩])] :=
  (Reached.new .plain _).add _ "new" {} (by decide +kernel)

/-- the places of a folder -/
theorem places_of {R : Root TileFolder} {g : Grid Tile} (h : (match R with | none => true | some F => F.tiles.all (fun e => (List.range g.slots).any (fun k =>
    (g.tile? k).isSome && decide (g.tileOrigin k = some e.1)))) = true) :
    ∀ o f, tileFolder R o = some f → ∃ k t, g.tile? k = some t ∧ g.tileOrigin k = some o := by
  intro o f hf
  cases R with
  | none => cases hf
  | some F =>
    have hm : o ∈ F.tiles.keys := by
      by_contra hno
      have : F.tiles.get? o = none := (Dict.get?_eq_none _ _).2 hno
      have hf' : F.tiles.get? o = some f := hf
      rw [this] at hf'
      cases hf'
    obtain ⟨e, he, rfl⟩ := List.mem_map.1 hm
    have h1 := List.all_eq_true.1 h e he
    obtain ⟨k, -, hk⟩ := List.any_eq_true.1 h1
    rw [Bool.and_eq_true, decide_eq_true_eq] at hk
    obtain ⟨t, ht⟩ := Option.isSome_iff_exists.1 hk.1
    exact ⟨k, t, ht, hk.2⟩

example : (coveringGrid.save .numpy (some "one")).err = none ∧ (coveringGrid.disk "one").now ≠ none :=
  ⟨(C97_over_sr_partial (by norm_num) coveringGrid_reached (by simp) (p := "one") (by decide) (places_of (by decide +kernel))).1, by decide +kernel⟩

/-- an older variable resolution grid in the folder "one" -/
def olderVR : Session (Grid Tile) (GridFolder TileFolder) := ((⟨newVR 32 16 false, some "one", noFolders⟩ : Session (Grid Tile) (GridFolder TileFolder)).addPoints .zarr ⟨demoFields, demoA⟩ "a" {}).st

/-- a new one, made in memory, with soundings at the same places -/
def newerVR : Session (Grid Tile) (GridFolder TileFolder) := ((⟨newVR 32 16 false, none, olderVR.disk⟩ : Session (Grid Tile) (GridFolder TileFolder)).addPoints .zarr ⟨demoFields, demoA ++ demoA⟩ "c" {}).st

theorem olderVR_reached : VRReached demoEnv .zarr 32 16 false demoFields .plain false false olderVR [("a", demoA)] :=
  (Reached.create .plain "one" noFolders (by decide) rfl).add _ "a" {} (by decide +kernel)

theorem newerVR_reached : VRReached demoEnv .zarr 32 16 false demoFields .plain false false newerVR [("c", demoA ++ demoA)] :=
  (Reached.new .plain _).add _ "c" {} (by decide +kernel)

example : (olderVR.save .zarr (some "one")).err = none := (C97_again_vr_partial (by norm_num) (by decide +kernel) olderVR_reached (by simp) (p := "one") rfl (newVR 32 16 false) none).1

/-- the places of the folder of a grid with subgrids -/
theorem places_vr {R : Root (GridFolder TileFolder)} {g : Grid (Grid Tile)}
    (h : (match R with | none => true | some F => F.tiles.all (fun e => (List.range g.slots).any (fun k => decide (g.tileOrigin k = some e.1) && (match g.tile? k with
      | some (some t) => e.2.tiles.all (fun e' => (List.range t.slots).any (fun k' => (t.tile? k').isSome && decide (t.tileOrigin k' = some e'.1)))
      | _ => false)))) = true) :
    ∀ o f, tileFolder R o = some f → ∃ k t, g.tile? k = some (some t) ∧ g.tileOrigin k = some o ∧
      ∀ o' f', f.tiles.get? o' = some f' → ∃ k' t', t.tile? k' = some t' ∧ t.tileOrigin k' = some o' := by
  intro o f hf
  cases R with
  | none => cases hf
  | some F =>
    have hm : (o, f) ∈ F.tiles := Dict.mem_of_get? _ hf
    have h1 := List.all_eq_true.1 h _ hm
    obtain ⟨k, -, hk⟩ := List.any_eq_true.1 h1
    rw [Bool.and_eq_true, decide_eq_true_eq] at hk
    obtain ⟨hk1, hk2⟩ := hk
    cases ht : g.tile? k with
    | none => rw [ht] at hk2; cases hk2
    | some x =>
      cases x with
      | none => rw [ht] at hk2; cases hk2
      | some t =>
        rw [ht] at hk2
        exact ⟨k, t, ht, hk1, fun o' f' hf' => places_of (R := some f) hk2 o' f' hf'⟩

example : (newerVR.save .zarr (some "one")).err = none ∧ (newerVR.disk "one").now ≠ none :=
  ⟨(C97_over_vr_partial (by norm_num) (by decide +kernel) newerVR_reached (by simp) (p := "one") (by decide) (places_vr (by decide +kernel))).1, by decide +kernel⟩

end Bathy
