import Verif.Lemmas.Csv
import Verif.Props.AutoResolution
import Verif.Props.PointQuery
import Verif.Props.GridPoints
import Verif.Props.LayerSign

/-!
# C46, C68: exported csv tables

Model: `Grid.csvFile`, `Grid.exportCsv` (bathygrid/bgrid.py:2231-2272).
-/

namespace Bathy

variable {size sub : ℚ} {bs : Bool} {fl : Fields} {env : Env} {F : Family} {s : Bool} {A : Store} {a : GridCall} {dask : Option Nat} {res : ℚ} {zUp flip : Bool}

/-- **C46** (single resolution grids): the table for any resolution of a grid in any state in which every tile stores all of the layers or none.
Depths are positive down, and negated if positive up is asked for and the mean depth is positive. -/
theorem C46_csv_sr_partial (hs : 0 < size) {g : Grid Tile} (h : SRHistory env size bs fl F s g A) {l0 : Layer} {ls : List Layer} (hn : g.returnLayerNames = .ok (l0 :: ls))
    (hcore : ∀ l ∈ l0 :: ls, l.isCore = true) (hnd : (l0 :: ls).Nodup) (hl0 : NanLayer l0) (hres : 0 < res) (hall : g.AllOrNone (l0 :: ls) res)
    (hflip : flip = true ↔ ¬ (StoredUp g ↔ (zUp = true ∧ 0 < g.meanDepth))) {g' : Grid Tile} {f : CsvFile} (hq : g.csvFile env res zUp = (g', .ok f)) :
    g' = g ∧ CsvSpec g (l0 :: ls) res zUp flip f :=
  csv_spec hres hn (fill_nan hl0) (fun _ _ hh => C35_own_slot_sr_partial hs h hcore hnd hres hall hh) hflip hq

/-- **C46** (variable resolution grids) -/
theorem C46_csv_vr_partial (hs : 0 < size) (hpow : isPowerOfTwo sub = true) {q : Nat} (hdiv : size = (q : ℚ) * sub) {g : Grid (Grid Tile)}
    (h : VRHistory env size sub bs fl F s g A) {l0 : Layer} {ls : List Layer} (hn : g.returnLayerNames = .ok (l0 :: ls))
    (hcore : ∀ l ∈ l0 :: ls, l.isCore = true) (hnd : (l0 :: ls).Nodup) (hl0 : NanLayer l0) (hres : 0 < res) (hall : g.AllOrNone (l0 :: ls) res)
    (hflip : flip = true ↔ ¬ (StoredUp g ↔ (zUp = true ∧ 0 < g.meanDepth))) {g' : Grid (Grid Tile)} {f : CsvFile} (hq : g.csvFile env res zUp = (g', .ok f)) :
    g' = g ∧ CsvSpec g (l0 :: ls) res zUp flip f :=
  csv_spec hres hn (fill_nan hl0) (fun _ _ hh => C35_own_slot_vr_partial hs hpow hdiv h hcore hnd hres hall hh) hflip hq

theorem written_plain (bs : Bool) (fl : Fields) : ∃ ls, writtenLayers .plain bs fl = mainLayer bs :: ls ∧ writtenLayers .plain bs fl = algorithmLayers bs fl .plain ∧
    (writtenLayers .plain bs fl).Nodup ∧ NanLayer (mainLayer bs) := by
  obtain ⟨a, b⟩ := fl
  cases bs <;> cases a <;> cases b <;> exact ⟨_, rfl, rfl, by decide, by decide, by decide⟩

theorem onlyAt_names {t : Tile} {r : ℚ} {F' : Family} (h : OnlyAt bs fl F' t r) : t.firstNames = some (algorithmLayers bs fl F') := by
  obtain ⟨ls, h1, h2⟩ := h
  unfold Tile.firstNames
  rw [h1, ← h2]; rfl

theorem getLayers_noGrid {τ : Type} [LayerLike τ] {g : Grid τ} {layers : List Layer} {o : Option (List LayerArr)} {r nodata : Option ℚ} {zUp : Bool}
    (h : (g.getLayersByName env layers r nodata zUp).2 = .ok o) : g.noGrid = .ok false := by
  unfold Grid.getLayersByName at h
  split at h
  · cases h
  · cases h
  · rename_i h'; exact h'

/-- **C46** right after gridding by mean or shoalest with existing layers cleared (at one resolution or at resolutions of their own for the tiles, any
number of workers): the export writes one table for each resolution of the grid, with all layers of the grid, and leaves the grid as it is. -/
theorem C46_after_gridding_sr (hs : 0 < size) {g : Grid Tile} (h : SRHistory env size bs fl F s g A) (ha : a.alg = .mean ∨ a.alg = .shoalest) (hc : a.clear = true)
    (hok : (g.gridWith env a dask).err = none) (hdvd : ∀ r ∈ (g.gridWith env a dask).st.resolutions, ∃ m : Nat, size = (m : ℚ) * r)
    (hflip : flip = true ↔ ¬ (StoredUp (g.gridWith env a dask).st ↔ (zUp = true ∧ 0 < (g.gridWith env a dask).st.meanDepth))) :
    ∃ files, (g.gridWith env a dask).st.exportCsv env zUp none = ((g.gridWith env a dask).st, files, none) ∧
      files.map Prod.fst = (g.gridWith env a dask).st.resolutions ∧
      ∀ p ∈ files, CsvSpec (g.gridWith env a dask).st (writtenLayers .plain bs fl) p.1 zUp flip p.2 := by
  have hfam : a.alg.family = some .plain := by rcases ha with e | e <;> rw [e] <;> rfl
  have h1 : SRHistory env size bs fl .plain s (g.gridWith env a dask).st A := history_after h hfam (Or.inr hc) hok
  have hlv := Grid.leaves_sr hs h (Or.inr hc) hok
  have hi := (sr_inv hs h1).1
  obtain ⟨ls, hw, hal, hnd, hnan⟩ := written_plain bs fl
  have hA := store_ne (sr_inv hs h).1 hok
  obtain ⟨out, ho, h2, h3⟩ := csvLoop_ok (env := env) (g := (g.gridWith env a dask).st) (zUp := zUp) (rs := (g.gridWith env a dask).st.resolutions)
    (P := fun r f => CsvSpec (g.gridWith env a dask).st (writtenLayers .plain bs fl) r zUp flip f) (by
      intro r hr
      obtain ⟨u, hu, hrun⟩ := hlv.2 r hr
      obtain ⟨-, -, -, -, -, hpow, -⟩ := leafRun_call (F' := .plain) hrun (Or.inr hc)
      have hr0 := isPowerOfTwo_pos hpow
      obtain ⟨m, hm⟩ := hdvd r hr
      obtain ⟨o, ho, -⟩ := C64_retrievable_sr_partial hs h hfam (Or.inr hc) (Or.inr hc) hok (layers := writtenLayers .plain bs fl) (fun l h => h) hr0 hm none false
      have hnames : (g.gridWith env a dask).st.returnLayerNames = .ok (writtenLayers .plain bs fl) := by
        unfold Grid.returnLayerNames
        rw [getLayers_noGrid ho]
        simp only
        have hwf := (Grid.grow_reps hi).2
        refine namesLoop_same ?_ ?_
        · obtain ⟨i, j, t, ht, -⟩ := hu
          exact List.ne_nil_of_mem ((Grid.mem_present hwf).2 ⟨i, j, ht⟩)
        · intro t ht
          obtain ⟨i, j, ht⟩ := (Grid.mem_present hwf).1 ht
          obtain ⟨r', -, hrun'⟩ := hlv.1 t ⟨i, j, t, ht, rfl⟩
          show Except.ok _ = _
          rw [onlyAt_names (leafRun_only hs hrun' hfam hc).2, hal]
      have hm : ∀ g' o, (g.gridWith env a dask).st.getLayersByName env (writtenLayers .plain bs fl) (some r) none false = (g', .ok o) →
          MosaicSpec (g.gridWith env a dask).st (writtenLayers .plain bs fl) r none false g' o :=
        fun g' o hh => C35_after_gridding_sr hs h ha (Or.inr hc) (Or.inr hc) (Or.inr hc) hr0 hok (fun l h => h) hnd hh
      have hst : ∃ x y z, StoredCell (g.gridWith env a dask).st (mainLayer bs) r x y z := by
        obtain ⟨i, j, t, ht, hut⟩ := hu
        obtain ⟨x, y, B, hB⟩ := (Grid.grow_reps hi).1 i j t ht
        obtain ⟨x, y, z, hz⟩ := leafRun_stored hs hrun ha (Or.inr hc) ((leafNe_tile env .plain hs).ne hB hut) (l := mainLayer bs) (by rw [hw]; exact List.mem_cons_self)
        exact ⟨x, y, z, Grid.stored_grid.2 ⟨i, j, t, ht, stored_of_leaf hut hz⟩⟩
      rw [hw] at ho hnames hm ⊢
      obtain ⟨f, hf⟩ := csv_ok hr0 (zUp := zUp) hnames ho hm hst
      exact ⟨f, hf, (csv_spec hr0 hnames (fill_nan hnan) hm hflip hf).2⟩) []
  exact ⟨out, by unfold Grid.exportCsv; exact ho, h2, h3⟩

/-- **C46** right after gridding, variable resolution grids. -/
theorem C46_after_gridding_vr (hs : 0 < size) (hpow : isPowerOfTwo sub = true) {q : Nat} (hdiv : size = (q : ℚ) * sub) {g : Grid (Grid Tile)}
    (h : VRHistory env size sub bs fl F s g A) (ha : a.alg = .mean ∨ a.alg = .shoalest) (hc : a.clear = true)
    (hok : (g.gridWith env a dask).err = none) (hdvd : ∀ r ∈ (g.gridWith env a dask).st.resolutions, ∃ m : Nat, sub = (m : ℚ) * r)
    (hflip : flip = true ↔ ¬ (StoredUp (g.gridWith env a dask).st ↔ (zUp = true ∧ 0 < (g.gridWith env a dask).st.meanDepth))) :
    ∃ files, (g.gridWith env a dask).st.exportCsv env zUp none = ((g.gridWith env a dask).st, files, none) ∧
      files.map Prod.fst = (g.gridWith env a dask).st.resolutions ∧
      ∀ p ∈ files, CsvSpec (g.gridWith env a dask).st (writtenLayers .plain false fl) p.1 zUp flip p.2 := by
  have hfam : a.alg.family = some .plain := by rcases ha with e | e <;> rw [e] <;> rfl
  have h1 : VRHistory env size sub bs fl .plain s (g.gridWith env a dask).st A := history_after h hfam (Or.inr hc) hok
  have hsub := isPowerOfTwo_pos hpow
  have hlv := Grid.leaves_vr hs hpow h (Or.inr hc) hok
  have hi := (vr_inv hs hpow h1).1
  obtain ⟨ls, hw, hal, hnd, hnan⟩ := written_plain false fl
  have hA := store_ne (vr_inv hs hpow h).1 hok
  obtain ⟨out, ho, h2, h3⟩ := csvLoop_ok (env := env) (g := (g.gridWith env a dask).st) (zUp := zUp) (rs := (g.gridWith env a dask).st.resolutions)
    (P := fun r f => CsvSpec (g.gridWith env a dask).st (writtenLayers .plain false fl) r zUp flip f) (by
      intro r hr
      obtain ⟨u, hu, hrun⟩ := hlv.2 r hr
      obtain ⟨-, -, -, -, -, hpr, -⟩ := leafRun_call (F' := .plain) hrun (Or.inr hc)
      have hr0 := isPowerOfTwo_pos hpr
      obtain ⟨m, hm⟩ := hdvd r hr
      obtain ⟨o, ho, -⟩ := C64_retrievable_vr_partial hs hpow hdiv h hfam (Or.inr hc) (Or.inr hc) hok (layers := writtenLayers .plain false fl) (fun l h => h) hr0 hm none false
      have hnames : (g.gridWith env a dask).st.returnLayerNames = .ok (writtenLayers .plain false fl) := by
        unfold Grid.returnLayerNames
        rw [getLayers_noGrid ho]
        simp only
        have hwf := (Grid.grow_reps hi).2
        refine namesLoop_same ?_ ?_
        · obtain ⟨i, j, t, ht, -⟩ := hu
          exact List.ne_nil_of_mem ((Grid.mem_present hwf).2 ⟨i, j, ht⟩)
        · intro t ht
          obtain ⟨i, j, ht⟩ := (Grid.mem_present hwf).1 ht
          obtain ⟨hnum, hpos, -⟩ := (C09_tile_count_vr hs hpow h1).2.2 i j t ht
          show t.subLayerNames = _
          unfold Grid.subLayerNames
          rw [hnum]
          simp only
          rw [if_pos (by exact_mod_cast hpos)]
          cases htt : t.tiles with
          | none => unfold Grid.tileObjects Grid.slotList at hpos; rw [htt] at hpos; simp at hpos
          | some T =>
            simp only
            have hall : ∀ v ∈ t.present, v.firstNames = some (writtenLayers .plain false fl) := by
              intro v hv
              obtain ⟨i', j', hv⟩ : ∃ i' j', t.TileAt i' j' v := by
                obtain ⟨x, y, B, hB⟩ := (Grid.grow_reps hi).1 i j t ht
                exact (Grid.mem_present (Grid.sub_reps hB).2).1 hv
              obtain ⟨r', -, hrun'⟩ := hlv.1 v ⟨i, j, t, ht, i', j', v, hv, rfl⟩
              rw [onlyAt_names (leafRun_only hsub hrun' hfam hc).2, hal]
            have hne : t.present ≠ [] := by
              unfold Grid.tileObjects Grid.slotList at hpos
              rw [htt] at hpos
              obtain ⟨o, ho⟩ := List.exists_mem_of_length_pos hpos
              obtain ⟨ho, hs⟩ := List.mem_filter.1 ho
              obtain ⟨v, rfl⟩ := Option.isSome_iff_exists.1 hs
              refine List.ne_nil_of_mem (a := v) ?_
              unfold Grid.present
              rw [htt]
              exact List.mem_filterMap.2 ⟨some v, ho, rfl⟩
            cases hp : t.present with
            | nil => exact absurd hp hne
            | cons v vs => rw [List.findSome?_cons, hall v (by rw [hp]; exact List.mem_cons_self)]
      have hm : ∀ g' o, (g.gridWith env a dask).st.getLayersByName env (writtenLayers .plain false fl) (some r) none false = (g', .ok o) →
          MosaicSpec (g.gridWith env a dask).st (writtenLayers .plain false fl) r none false g' o :=
        fun g' o hh => C35_after_gridding_vr hs hpow hdiv h ha (Or.inr hc) (Or.inr hc) (Or.inr hc) hr0 hok (fun l h => h) hnd hh
      have hst : ∃ x y z, StoredCell (g.gridWith env a dask).st (mainLayer false) r x y z := by
        obtain ⟨i, j, t, ht, hut⟩ := hu
        obtain ⟨x, y, B, hB⟩ := (Grid.grow_reps hi).1 i j t ht
        obtain ⟨x, y, z, hz⟩ := leafRun_stored hsub hrun ha (Or.inr hc) ((leafNe_sub (bs := bs) (leafNe_tile env .plain (sub := 0) (bs := false) (fl := fl) hsub) hs hpow).ne hB hut)
          (l := mainLayer false) (by rw [hw]; exact List.mem_cons_self)
        exact ⟨x, y, z, Grid.stored_grid.2 ⟨i, j, t, ht, stored_of_leaf hut hz⟩⟩
      rw [hw] at ho hnames hm ⊢
      obtain ⟨f, hf⟩ := csv_ok hr0 (zUp := zUp) hnames ho hm hst
      exact ⟨f, hf, (csv_spec hr0 hnames (fill_nan hnan) hm hflip hf).2⟩) []
  exact ⟨out, by unfold Grid.exportCsv; exact ho, h2, h3⟩

/-! ## C68 -/

/-- in the row of the cell with lower left corner (x, y) the column `elevation` holds the number `v` -/
def ElevationAt (f : CsvFile) (res x y v : ℚ) : Prop :=
  ∃ w ∈ f.rows, w.x = x + res / 2 ∧ w.y = y + res / 2 ∧ ∃ k : Nat, f.header[k + 2]? = some .elevation ∧ w.values[k]? = some (some v)

theorem elevation_of {τ : Type} [HasLeaves τ] {g : Grid τ} {ls : List Layer} {res : ℚ} {f : CsvFile} (h : CsvSpec g (.depth :: ls) res true flip f) {x y z : ℚ}
    (hz : StoredCell g .depth res x y z) : ElevationAt f res x y (shownValue .depth flip z) := by
  obtain ⟨e, r0, r1, c0, c1, he, hbox, hcells, hrows⟩ := h.cells
  obtain ⟨i, j, hi0, hi1, hj0, hj1, rfl, rfl⟩ := (hbox _ rfl).all x y z hz
  obtain ⟨w, hw, hx, hy⟩ := hcells i j hi0 hi1 hj0 hj1
  obtain ⟨i', j', -, hx', hy', -, hv⟩ := hrows w hw
  obtain ⟨v, hv, hs, -⟩ := hv 0 .depth rfl
  have e1 : e.minX + (j' : ℚ) * res = e.minX + (j : ℚ) * res := by linarith
  have e2 : e.minY + (i' : ℚ) * res = e.minY + (i : ℚ) * res := by linarith
  rw [e1, e2] at hs
  exact ⟨w, hw, hx, hy, 0, by rw [h.header]; rfl, by rw [hv, hs z hz]⟩

/-- **C68** (single resolution grids) for grids with a positive mean depth: after gridding, each number that is stored as depth is in the exported
table of its resolution, as an elevation (positive up). -/
theorem C68_elevation_sr_partial (hs : 0 < size) {g : Grid Tile} (h : SRHistory env size false fl F s g A) (ha : a.alg = .mean ∨ a.alg = .shoalest) (hc : a.clear = true)
    (hok : (g.gridWith env a dask).err = none) (hdvd : ∀ r ∈ (g.gridWith env a dask).st.resolutions, ∃ m : Nat, size = (m : ℚ) * r)
    (hmd : 0 < (g.gridWith env a dask).st.meanDepth) :
    ∃ files, ((g.gridWith env a dask).st.exportCsv env true none).2 = (files, none) ∧ files.map Prod.fst = (g.gridWith env a dask).st.resolutions ∧
      ∀ p ∈ files, ∀ x y z, StoredCell (g.gridWith env a dask).st .depth p.1 x y z →
        (StoredUp (g.gridWith env a dask).st → ElevationAt p.2 p.1 x y z) ∧ (¬ StoredUp (g.gridWith env a dask).st → ElevationAt p.2 p.1 x y (-z)) := by
  classical
  obtain ⟨files, h1, h2, h3⟩ := C46_after_gridding_sr (zUp := true) (flip := decide (¬ StoredUp (g.gridWith env a dask).st)) hs h ha hc hok hdvd (by simp [hmd])
  obtain ⟨ls, hw, -⟩ := written_plain false fl
  refine ⟨files, by rw [h1], h2, fun p hp x y z hz => ?_⟩
  have hsp := h3 p hp
  rw [hw] at hsp
  have := elevation_of hsp hz
  exact ⟨fun hu => by simpa [shownValue, hu] using this, fun hu => by simpa [shownValue, hu] using this⟩

/-- **C68** (variable resolution grids) for grids with a positive mean depth -/
theorem C68_elevation_vr_partial (hs : 0 < size) (hpow : isPowerOfTwo sub = true) {q : Nat} (hdiv : size = (q : ℚ) * sub) {g : Grid (Grid Tile)}
    (h : VRHistory env size sub bs fl F s g A) (ha : a.alg = .mean ∨ a.alg = .shoalest) (hc : a.clear = true)
    (hok : (g.gridWith env a dask).err = none) (hdvd : ∀ r ∈ (g.gridWith env a dask).st.resolutions, ∃ m : Nat, sub = (m : ℚ) * r)
    (hmd : 0 < (g.gridWith env a dask).st.meanDepth) :
    ∃ files, ((g.gridWith env a dask).st.exportCsv env true none).2 = (files, none) ∧ files.map Prod.fst = (g.gridWith env a dask).st.resolutions ∧
      ∀ p ∈ files, ∀ x y z, StoredCell (g.gridWith env a dask).st .depth p.1 x y z →
        (StoredUp (g.gridWith env a dask).st → ElevationAt p.2 p.1 x y z) ∧ (¬ StoredUp (g.gridWith env a dask).st → ElevationAt p.2 p.1 x y (-z)) := by
  classical
  obtain ⟨files, h1, h2, h3⟩ := C46_after_gridding_vr (zUp := true) (flip := decide (¬ StoredUp (g.gridWith env a dask).st)) hs hpow hdiv h ha hc hok hdvd (by simp [hmd])
  obtain ⟨ls, hw, -⟩ := written_plain false fl
  refine ⟨files, by rw [h1], h2, fun p hp x y z hz => ?_⟩
  have hsp := h3 p hp
  rw [hw] at hsp
  have := elevation_of hsp hz
  exact ⟨fun hu => by simpa [shownValue, hu] using this, fun hu => by simpa [shownValue, hu] using this⟩

/-- the hypotheses are met: several tiles, one resolution and several, both kinds of grids -/
example : SRHistory demoEnv 16 false demoFields .plain false demoSR demoStore ∧ VRHistory demoEnv 32 16 false demoFields .plain false demoVR demoStore ∧
    (demoSR.gridWith demoEnv { alg := .mean, res := some 8, clear := true } none).err = none ∧
    (demoVR.gridWith demoEnv { alg := .shoalest, res := none, clear := true } (some 2)).err = none ∧
    (demoSR.gridWith demoEnv { alg := .mean, res := some 8, clear := true } none).st.resolutions = [8] ∧
    (demoVR.gridWith demoEnv { alg := .shoalest, res := none, clear := true } (some 2)).st.resolutions = [1/4, 1/2, 2] ∧
    0 < (demoSR.gridWith demoEnv { alg := .mean, res := some 8, clear := true } none).st.meanDepth ∧
    0 < (demoVR.gridWith demoEnv { alg := .shoalest, res := none, clear := true } (some 2)).st.meanDepth ∧
    (16 : ℚ) = ((2 : Nat) : ℚ) * 8 ∧ (16 : ℚ) = ((64 : Nat) : ℚ) * (1/4) ∧ (16 : ℚ) = ((32 : Nat) : ℚ) * (1/2) ∧ (16 : ℚ) = ((8 : Nat) : ℚ) * 2 ∧ (32 : ℚ) = ((2 : Nat) : ℚ) * 16 :=
  ⟨demoSR_history, demoVR_history, by decide +kernel, by decide +kernel, by decide +kernel, by decide +kernel, by decide +kernel, by decide +kernel, by norm_num, by norm_num, by norm_num,
    by norm_num, by norm_num⟩

/-- the general form applies to grids that were gridded without clearing the layers -/
example : SRHistory demoEnv 16 false demoFields .plain false upGrid [("a", [⟨1, 1, -5, 1, 1⟩, ⟨20, 1, -7, 1, 1⟩])] ∧
    upGrid.returnLayerNames = .ok [.depth, .density, .vertical, .horizontal] ∧ NanLayer .depth ∧ upGrid.AllOrNone [.depth, .density, .vertical, .horizontal] 8 ∧
    (match (upGrid.csvFile demoEnv 8 true).2 with | .ok f => decide (f.rows.map (fun w => (w.x, w.y)) = [(4, 4), (12, 4), (20, 4)]) | _ => false) = true := by
  have h0 : SRHistory demoEnv 16 false demoFields .plain false ((newSR 16 false).addPoints ⟨demoFields, [⟨1, 1, -5, 1, 1⟩, ⟨20, 1, -7, 1, 1⟩]⟩ "a"
      { vref := some "VERTCRS[\"x\",AXIS[\"height (h)\",up]]" }).st [("a", [⟨1, 1, -5, 1, 1⟩, ⟨20, 1, -7, 1, 1⟩])] := (GridHistory.new .plain).add _ "a" _ (by decide +kernel)
  have hruns := Grid.leaves_sr (by norm_num) h0 (a := { alg := .mean, res := some 8 }) (dask := none) (Or.inl rfl) (by decide +kernel)
  exact ⟨upGrid_history, by decide +kernel, ⟨by decide, by decide⟩,
    runs_allOrNone (leafNe_tile demoEnv .plain (by norm_num)) (sr_inv (by norm_num) upGrid_history).1 (w := 16) (by norm_num) (Or.inl rfl) (Or.inl rfl)
      (fun u hu => (hruns.1 u hu).imp fun _ h => h.2) (Or.inl rfl) (by decide +kernel), by decide +kernel⟩

/-- a grid with a drying height: depths are positive down, the mean depth is negative -/
def dryGrid : Grid Tile := (((newSR 16 false).addPoints ⟨demoFields, [⟨1, 1, -5, 1, 1⟩, ⟨20, 1, 3, 1, 1⟩]⟩ "a" {}).st.gridWith demoEnv { alg := .mean, res := some 8 } none).st

/-- **C68 is violated** when the mean depth is not positive.  `upGrid` stores the heights -5 and -7 (positive up) and exports the elevations 5 and 7;
`dryGrid` stores the depths -5 and 3 (positive down) and exports them unchanged as elevations. -/
theorem C68_violated :
    (StoredUp upGrid ∧ SRHistory demoEnv 16 false demoFields .plain false upGrid [("a", [⟨1, 1, -5, 1, 1⟩, ⟨20, 1, -7, 1, 1⟩])] ∧
      ∃ f, (upGrid.exportCsv demoEnv true none).2 = ([(8, f)], none) ∧ ElevationAt f 8 0 0 5 ∧ ElevationAt f 8 16 0 7) ∧
    (¬ StoredUp dryGrid ∧ SRHistory demoEnv 16 false demoFields .plain false dryGrid [("a", [⟨1, 1, -5, 1, 1⟩, ⟨20, 1, 3, 1, 1⟩])] ∧
      ∃ f, (dryGrid.exportCsv demoEnv true none).2 = ([(8, f)], none) ∧ ElevationAt f 8 0 0 (-5) ∧ ElevationAt f 8 16 0 3) := by
  have key : ∀ (g : Grid Tile) (u v : ℚ), (match (g.exportCsv demoEnv true none).2 with
      | ([(r, f)], none) => decide (r = 8 ∧ f.header[2]? = some .elevation ∧ (∃ w ∈ f.rows, w.x = 0 + 8 / 2 ∧ w.y = 0 + 8 / 2 ∧ w.values[0]? = some (some u)) ∧
          (∃ w ∈ f.rows, w.x = 16 + 8 / 2 ∧ w.y = 0 + 8 / 2 ∧ w.values[0]? = some (some v)))
      | _ => false) = true → ∃ f, (g.exportCsv demoEnv true none).2 = ([(8, f)], none) ∧ ElevationAt f 8 0 0 u ∧ ElevationAt f 8 16 0 v := by
    intro g u v h
    split at h
    · rename_i r f he
      obtain ⟨rfl, h1, ⟨w, hw, h2, h3, h4⟩, w', hw', h2', h3', h4'⟩ := of_decide_eq_true h
      exact ⟨f, he, ⟨w, hw, h2, h3, 0, h1, h4⟩, w', hw', h2', h3', 0, h1, h4'⟩
    · cases h
  refine ⟨⟨⟨"VERTCRS[\"x\",AXIS[\"height (h)\",up]]", by decide +kernel, by decide +kernel⟩, upGrid_history, key _ _ _ (by decide +kernel)⟩, ?_,
    ((GridHistory.new .plain).add _ "a" _ (by decide +kernel)).grid { alg := .mean, res := some 8 } rfl none, key _ _ _ (by decide +kernel)⟩
  rintro ⟨s, hs, -⟩
  have : dryGrid.info.vref = none := by decide +kernel
  rw [this] at hs; cases hs

end Bathy
