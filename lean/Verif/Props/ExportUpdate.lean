import Verif.Props.ExportSurface
import Verif.Props.AutoSurface

/-!
# C129: rasters of a grid kept up to date by updates
-/

namespace Bathy
open Grid

variable {env : Env} {l : Layer} {r : ℚ} {size sub : ℚ} {bs : Bool} {fl : Fields} {F : Family} {s : Bool} {A A' : Store} {a a0 : GridCall} {d0 da : Option Nat} {kind : RasterKind}

private theorem leafRule_has {n : Nat} {R : List Pt → Option ℚ → Prop} {u : Tile} (h : LeafRule r n l R u) : u.cells.has r = true := by
  obtain ⟨d, hd, -⟩ := h
  unfold Tile.layerAt at hd
  obtain ⟨ls, hls, -⟩ := Option.bind_eq_some_iff.1 hd
  rw [← Dict.get?_isSome, hls]; rfl

private theorem has_ne {u : Tile} (h : u.cells.has r = true) : u.cells ≠ [] := by
  intro hn
  rw [hn] at h
  cases h

/-- the rasters of a grid whose tiles all hold the resolution -/
private theorem rasters_has_sr (hs : 0 < size) {g : Grid Tile} (h : SRHistory env size bs fl .plain s g A) (hE : g.info.epsg ≠ none) (hA : A ≠ [])
    (hhas : ∀ u, g.Leaf u → u.cells.has r = true) (hk : kind = .bag → bs = false) {m : Nat} (hm : size = (m : ℚ) * r) (zUp : Bool) (override : Option ℚ) :
    ∃ files, g.exportRaster env kind zUp (some r) override = (g, files, none) ∧ RastersRight g (expectedBands kind zUp bs .plain fl) r files := by
  have hi := (sr_inv hs h).1
  have hr0 := mul_pos_nat hs hm
  obtain ⟨u, i, j, t, ht, hut⟩ := grow_leaf hs (leafNe_tile env .plain hs) hi hA
  have hnd := (finalNames_expected kind zUp bs .plain fl).2.2.1
  have hl : ∀ l ∈ (expectedBands kind zUp bs .plain fl).map Prod.snd, l ∈ writtenLayers .plain bs fl := fun l h => expected_written h
  obtain ⟨per, p1, p2, p3⟩ := export_ok (env := env) (g := g) (kind := kind) (zUp := zUp) (bs := bs) (F := .plain) (fl := fl) hE hi.backscatter hk
    (fun hb => by
      subst hb
      refine names_grid (Grid.grow_reps hi).2 ⟨i, j, t, ht⟩ ?_
      intro r' c' t' ht'
      obtain ⟨x', y', B, hB⟩ := (Grid.grow_reps hi).1 r' c' t' ht'
      exact namesOk_tile env .plain hs hB (fun u hu => has_ne (hhas u ⟨r', c', t', ht', hu⟩)))
    (override := override) (res := some r) (rs := [r]) (.inr ⟨r, rfl, rfl⟩) (by
      intro zUp' r' hr'
      rw [List.mem_singleton.1 hr']
      have hcore := fun l (h : l ∈ (expectedBands kind zUp bs .plain fl).map Prod.snd) => writtenLayers_core (hl l h)
      refine ⟨_, rfl, ?_, C43_georeferenced_sr_partial hs h hcore hnd hr0 hhas (some 1000000) zUp' override, ?_, ?_⟩
      · rcases hi.body with ⟨h2, -⟩ | ⟨-, i', j', nx, ny, T, hf, he⟩
        · exact absurd h2 hA
        · exact Grid.chunks_ok (retrieves_tile env .plain hs) (answers_tile env .plain hs) (Grid.geoOk_tile env .plain hs) hs hf.toReady
            (fun u hu => has_ne (hhas u hu)) hl hcore hnd hr0 hm hm (some 1000000) zUp' true (geo_of_has hhas) ⟨i, j, t, ht⟩ override
      · exact chunks_keys (answers_tile env .plain hs) (Grid.geoOk_tile env .plain hs) hs hi hcore hnd hr0 (geo_of_has hhas) (some 1000000) zUp' override
      · intro c hc ge hge k l hkl
        have := C65_nodata_sr_partial hs h hcore hnd hr0 hhas (some 1000000) zUp' override hc hge hkl (Or.inr (fillValue_million _))
        rwa [fillValue_million] at this)
  match per, p1 with
  | [(x, f)], p1 =>
    have hx : x = r := by simpa using p1
    have p3 := p3 _ List.mem_cons_self
    rw [hx] at p3
    exact ⟨f, by rw [p2]; simp, p3⟩

private theorem rasters_cells_vr (hs : 0 < size) (hpow : isPowerOfTwo sub = true) {q : Nat} (hdiv : size = (q : ℚ) * sub) {g : Grid (Grid Tile)}
    (h : VRHistory env size sub false fl .plain s g A) (hE : g.info.epsg ≠ none) (hA : A ≠ [])
    (hcells : ∀ u, g.Leaf u → u.cells ≠ []) {m : Nat} (hm : sub = (m : ℚ) * r) (zUp : Bool) (override : Option ℚ) :
    ∃ files, g.exportRaster env kind zUp (some r) override = (g, files, none) ∧ RastersRight g (expectedBands kind zUp false .plain fl) r files := by
  have hsub := isPowerOfTwo_pos hpow
  have hi := (vr_inv hs hpow h).1
  have hr0 := mul_pos_nat hsub hm
  have hLt := leafNe_tile env .plain (sub := 0) (bs := false) (fl := fl) hsub
  obtain ⟨u, i, j, t, ht, hut⟩ := grow_leaf hs (leafNe_sub (bs := false) hLt hs hpow) hi hA
  have hnd := (finalNames_expected kind zUp false .plain fl).2.2.1
  have hl : ∀ l ∈ (expectedBands kind zUp false .plain fl).map Prod.snd, l ∈ writtenLayers .plain false fl := fun l h => expected_written h
  have hreps := (Grid.grow_reps hi).1
  obtain ⟨per, p1, p2, p3⟩ := export_ok (env := env) (g := g) (kind := kind) (zUp := zUp) (bs := false) (F := .plain) (fl := fl) hE hi.backscatter (fun _ => rfl)
    (fun _ => by
      refine names_grid (Grid.grow_reps hi).2 ⟨i, j, t, ht⟩ ?_
      intro r' c' t' ht'
      obtain ⟨x', y', B, hB⟩ := hreps r' c' t' ht'
      exact namesOk_sub (namesOk_tile env .plain hsub) hLt hs hpow hB (fun u hu => hcells u ⟨r', c', t', ht', hu⟩))
    (override := override) (res := some r) (rs := [r]) (.inr ⟨r, rfl, rfl⟩) (by
      intro zUp' r' hr'
      rw [List.mem_singleton.1 hr']
      have hcore := fun l (h : l ∈ (expectedBands kind zUp false .plain fl).map Prod.snd) => writtenLayers_core (hl l h)
      refine ⟨_, rfl, ?_, C43_georeferenced_vr_partial hs hpow hdiv h hcore hnd hr0 (some 1000000) zUp' override, ?_, ?_⟩
      · rcases hi.body with ⟨h2, -⟩ | ⟨-, i', j', nx, ny, T, hf, he⟩
        · exact absurd h2 hA
        · refine Grid.chunks_ok (n := q * m) (Grid.retrieves_sub (retrieves_tile env .plain (sub := 0) hsub) (answers_tile env .plain hsub)
            (fun {x y t A} _ hc => by
              have hc : t.cells ≠ [] := hc t rfl
              show Except.ok (!t.cells.isEmpty) = _
              cases he : t.cells with
              | nil => exact absurd he hc
              | cons p ps => rfl) (fun l hl => writtenLayers_core hl) hs hpow hdiv) (Grid.answers_sub (answers_tile env .plain hsub) hs hpow hdiv) (Grid.geoOk_sub hs hpow) hs hf.toReady
            hcells hl hcore hnd hr0 hm (by rw [hdiv, hm]; push_cast; ring) (some 1000000) zUp' true
            (fun _ _ _ ht => by obtain ⟨x, y, B, hB⟩ := hreps _ _ _ ht; exact Grid.geo_sub hs hpow hB r) ⟨i, j, t, ht⟩ override
      · exact chunks_keys (Grid.answers_sub (answers_tile env .plain hsub) hs hpow hdiv) (Grid.geoOk_sub hs hpow) hs hi hcore hnd hr0
          (fun _ _ _ ht => by obtain ⟨x, y, B, hB⟩ := hreps _ _ _ ht; exact Grid.geo_sub hs hpow hB r) (some 1000000) zUp' override
      · intro c hc ge hge k l hkl
        have := C65_nodata_vr_partial hs hpow hdiv h hcore hnd hr0 (some 1000000) zUp' override hc hge hkl (Or.inr (fillValue_million _))
        rwa [fillValue_million] at this)
  match per, p1 with
  | [(x, f)], p1 =>
    have hx : x = r := by simpa using p1
    have p3 := p3 _ List.mem_cons_self
    rw [hx] at p3
    exact ⟨f, by rw [p2]; simp, p3⟩

/-- **C129** (single resolution grids): what is stored after updates, in terms of the soundings that are in the grid then -/
theorem C129_stored_updated_sr (hs : 0 < size) {g g1 : Grid Tile} (h : SRHistory env size bs fl F s g A) (ha0 : a0.alg = .mean ∨ a0.alg = .shoalest) (hr0 : a0.res = some r)
    (hv0 : a0.regrid = .full ∨ a0.clear = true) (hF : F = .plain ∨ a0.clear = true) {n : Nat} (hn : size = n * r) (hok0 : (g.gridWith env a0 d0).err = none)
    (hsince : Since env fl a0.alg r (g.gridWith env a0 d0).st A g1 A') (ha : a.alg = a0.alg) (har : a.res = some r) (hok : (g1.gridWith env a da).err = none)
    (hl : Ruled a0.alg bs fl none l) : StoredBySoundings (g1.gridWith env a da).st a0.alg l r A'.allPts := by
  classical
  have hup : decide (StoredUp (g1.gridWith env a da).st) = true ↔ (false = true ↔ ¬ StoredUp (g1.gridWith env a da).st) := by simp
  obtain ⟨e, arr, h1, h2, -⟩ := C113_update_surface_sr hs h ha0 hr0 hv0 hF hn hok0 hsince ha har hok .refl (l := l) (nodata := none) (zUp := false) hl hup
  obtain ⟨hrp, h3, h4, -⟩ := layerShown_surface (.updateSR hs h hl rfl hr0 hv0 hF hn hok0 hsince ha har hok .refl hup h1 (by rw [h2])) ha0
  obtain ⟨h5, -⟩ := plain_family ha0
  obtain ⟨s', hh⟩ := since_reachable h5 (history_after h h5 (hF.imp Eq.symm id) hok0) (hsince.grid a ha har da hok)
  exact stored_by hl (C34_mosaic_sr hs hh (writtenLayers_core (rule_written hl)) hrp h2) h1 hup h3 h4

/-- **C129** (variable resolution grids): the same -/
theorem C129_stored_updated_vr (hs : 0 < size) (hsub : isPowerOfTwo sub = true) {q : Nat} (hdiv : size = (q : ℚ) * sub) {g g1 : Grid (Grid Tile)}
    (h : VRHistory env size sub bs fl F s g A) (ha0 : a0.alg = .mean ∨ a0.alg = .shoalest) (hr0 : a0.res = some r)
    (hv0 : a0.regrid = .full ∨ a0.clear = true) (hF : F = .plain ∨ a0.clear = true) {n : Nat} (hn : sub = n * r) (hok0 : (g.gridWith env a0 d0).err = none)
    (hsince : Since env fl a0.alg r (g.gridWith env a0 d0).st A g1 A') (ha : a.alg = a0.alg) (har : a.res = some r) (hok : (g1.gridWith env a da).err = none)
    (hl : Ruled a0.alg false fl none l) : StoredBySoundings (g1.gridWith env a da).st a0.alg l r A'.allPts := by
  classical
  have hup : decide (StoredUp (g1.gridWith env a da).st) = true ↔ (false = true ↔ ¬ StoredUp (g1.gridWith env a da).st) := by simp
  obtain ⟨e, arr, h1, h2, -⟩ := C113_update_surface_vr hs hsub hdiv h ha0 hr0 hv0 hF hn hok0 hsince ha har hok .refl (l := l) (nodata := none) (zUp := false) hl hup
  obtain ⟨hrp, h3, h4, -⟩ := layerShown_surface (.updateVR hs hsub hdiv h hl rfl hr0 hv0 hF hn hok0 hsince ha har hok .refl hup h1 (by rw [h2])) ha0
  obtain ⟨h5, -⟩ := plain_family ha0
  obtain ⟨s', hh⟩ := since_reachable h5 (history_after h h5 (hF.imp Eq.symm id) hok0) (hsince.grid a ha har da hok)
  exact stored_by hl (C34_mosaic_vr hs hsub hdiv hh (writtenLayers_core (rule_written hl)) hrp h2) h1 hup h3 h4

/-- **C129** (single resolution grids): the rasters that are exported after updates are the surface of the soundings that are in the grid then.  The grid was gridded once, all
tiles; after that soundings were added and removed and the grid was brought up to date, in any order and number. -/
theorem C129_rasters_updated_sr (hs : 0 < size) {g g1 : Grid Tile} (h : SRHistory env size bs fl F s g A) (ha0 : a0.alg = .mean ∨ a0.alg = .shoalest) (hr0 : a0.res = some r)
    (hv0 : a0.regrid = .full ∨ a0.clear = true) (hF : F = .plain ∨ a0.clear = true) {n : Nat} (hn : size = n * r) (hok0 : (g.gridWith env a0 d0).err = none)
    (hsince : Since env fl a0.alg r (g.gridWith env a0 d0).st A g1 A') (ha : a.alg = a0.alg) (har : a.res = some r) (hok : (g1.gridWith env a da).err = none)
    (hE : (g1.gridWith env a da).st.info.epsg ≠ none) (hk : kind = .bag → bs = false) (zUp : Bool) (override : Option ℚ) :
    ∃ files, (g1.gridWith env a da).st.exportRaster env kind zUp (some r) override = ((g1.gridWith env a da).st, files, none) ∧
      RastersOfSoundings (g1.gridWith env a da).st (CellRule a0.alg) (Ruled a0.alg bs fl none) (expectedBands kind zUp bs .plain fl) A'.allPts r files := by
  classical
  obtain ⟨h5, h6⟩ := plain_family ha0
  have hrp := pos_of_mul hs hn
  have k1 : GrowInv (curSpec env .plain size 0 bs fl hs a0.alg r) (g.gridWith env a0 d0).st A :=
    grow_did (sr_inv hs h).1 (fun hB hd => (regrids_full hs h5 h6 r).did rfl hr0 ⟨hv0, hF⟩ hB hd) hok0
  have k2 := since_inv hs (curSpec_query hs) (regrids_update hs h5 h6 r) k1 hsince
  have hA := store_ne k2 hok
  obtain ⟨s', hh⟩ := since_reachable h5 (history_after h h5 (hF.imp Eq.symm id) hok0) (hsince.grid a ha har da hok)
  have hmain : Ruled a0.alg bs fl none (mainLayer bs) := .inl rfl
  have hhas : ∀ u, (g1.gridWith env a da).st.Leaf u → u.cells.has r = true := fun u hu =>
    leafRule_has (current_rule hs hrp hn ha0 hmain (leafDid_grid (leafDid_tile hs h5 h6 r) k2 ha har hok u hu))
  obtain ⟨files, hf, hright⟩ := rasters_has_sr hs hh hE hA hhas hk hn zUp override
  refine ⟨files, hf, rasters_of hrp ha0 (fun l hl => C129_stored_updated_sr hs h ha0 hr0 hv0 hF hn hok0 hsince ha har hok hl) (fun name l hl => bands_density hl) (fun name l hl x y z hz => ?_) hright⟩
  have hw : l ∈ writtenLayers .plain bs fl := expected_written (List.mem_map.2 ⟨_, hl, rfl⟩)
  have hup : decide (StoredUp (g1.gridWith env a da).st) = true ↔ (false = true ↔ ¬ StoredUp (g1.gridWith env a da).st) := by simp
  obtain ⟨e, arr, e1, e2, -⟩ := C113_update_surface_sr hs h ha0 hr0 hv0 hF hn hok0 hsince ha har hok .refl (nodata := none) (zUp := false) hmain hup
  obtain ⟨-, -, e4, -⟩ := layerShown_surface (.updateSR hs h hmain rfl hr0 hv0 hF hn hok0 hsince ha har hok .refl hup e1 (by rw [e2])) ha0
  obtain ⟨o, ho⟩ := Grid.grow_retrieves (layers := [l]) (retrieves_tile env .plain (sub := 0) hs) (sr_inv hs hh).1 hA (fun u hu => has_ne (hhas u hu)) (by simpa using hw) hrp hn hn none false
  exact lattice_of (C34_mosaic_sr hs hh (writtenLayers_core hw) hrp (Prod.ext_iff.2 ⟨rfl, ho⟩)) (fun e' he' => by rw [e1] at he'; cases he'; exact e4) hz

/-- **C129** (variable resolution grids of depths): the same -/
theorem C129_rasters_updated_vr (hs : 0 < size) (hsub : isPowerOfTwo sub = true) {q : Nat} (hdiv : size = (q : ℚ) * sub) {g g1 : Grid (Grid Tile)}
    (h : VRHistory env size sub false fl F s g A) (ha0 : a0.alg = .mean ∨ a0.alg = .shoalest) (hr0 : a0.res = some r)
    (hv0 : a0.regrid = .full ∨ a0.clear = true) (hF : F = .plain ∨ a0.clear = true) {n : Nat} (hn : sub = n * r) (hok0 : (g.gridWith env a0 d0).err = none)
    (hsince : Since env fl a0.alg r (g.gridWith env a0 d0).st A g1 A') (ha : a.alg = a0.alg) (har : a.res = some r) (hok : (g1.gridWith env a da).err = none)
    (hE : (g1.gridWith env a da).st.info.epsg ≠ none) (kind : RasterKind) (zUp : Bool) (override : Option ℚ) :
    ∃ files, (g1.gridWith env a da).st.exportRaster env kind zUp (some r) override = ((g1.gridWith env a da).st, files, none) ∧
      RastersOfSoundings (g1.gridWith env a da).st (CellRule a0.alg) (Ruled a0.alg false fl none) (expectedBands kind zUp false .plain fl) A'.allPts r files := by
  classical
  obtain ⟨h5, h6⟩ := plain_family ha0
  have hp := isPowerOfTwo_pos hsub
  have hrp := pos_of_mul hp hn
  have k1 : GrowInv (subSpec (bs := false) (curSpec env .plain sub 0 false fl hp a0.alg r) hs hsub) (g.gridWith env a0 d0).st A :=
    grow_did (vr_inv hs hsub h).1 (fun hB hd => (regrids_sub (regrids_full hp h5 h6 r) hs hsub).did rfl hr0 ⟨hv0, hF⟩ hB hd) hok0
  have k2 := since_inv hs (sub_query (curSpec_query hp) hs hsub) (regrids_sub (regrids_update hp h5 h6 r) hs hsub) k1 hsince
  have hA := store_ne k2 hok
  obtain ⟨s', hh⟩ := since_reachable h5 (history_after h h5 (hF.imp Eq.symm id) hok0) (hsince.grid a ha har da hok)
  have hmain : Ruled a0.alg false fl none (mainLayer false) := .inl rfl
  have hcells : ∀ u, (g1.gridWith env a da).st.Leaf u → u.cells ≠ [] := fun u hu =>
    has_ne (leafRule_has (current_rule hp hrp hn ha0 hmain (leafDid_grid (leafDid_sub (leafDid_tile hp h5 h6 r) hs hsub) k2 ha har hok u hu)))
  obtain ⟨files, hf, hright⟩ := rasters_cells_vr hs hsub hdiv hh hE hA hcells hn zUp override (kind := kind)
  refine ⟨files, hf, rasters_of hrp ha0 (fun l hl => C129_stored_updated_vr hs hsub hdiv h ha0 hr0 hv0 hF hn hok0 hsince ha har hok hl) (fun name l hl => bands_density hl) (fun name l hl x y z hz => ?_) hright⟩
  have hw : l ∈ writtenLayers .plain false fl := expected_written (List.mem_map.2 ⟨_, hl, rfl⟩)
  have hup : decide (StoredUp (g1.gridWith env a da).st) = true ↔ (false = true ↔ ¬ StoredUp (g1.gridWith env a da).st) := by simp
  obtain ⟨e, arr, e1, e2, -⟩ := C113_update_surface_vr hs hsub hdiv h ha0 hr0 hv0 hF hn hok0 hsince ha har hok .refl (nodata := none) (zUp := false) hmain hup
  obtain ⟨-, -, e4, -⟩ := layerShown_surface (.updateVR hs hsub hdiv h hmain rfl hr0 hv0 hF hn hok0 hsince ha har hok .refl hup e1 (by rw [e2])) ha0
  obtain ⟨o, ho⟩ := Grid.grow_retrieves (n0 := q * n) (layers := [l]) (Grid.retrieves_sub (retrieves_tile env .plain (sub := 0) hp) (answers_tile env .plain hp)
      (fun {x y t A} _ hc => by
        have hc : t.cells ≠ [] := hc t rfl
        show Except.ok (!t.cells.isEmpty) = _
        cases he : t.cells with
        | nil => exact absurd he hc
        | cons p ps => rfl) (fun l hl => writtenLayers_core hl) hs hsub hdiv)
    (vr_inv hs hsub hh).1 hA hcells (by simpa using hw) hrp hn (by rw [hdiv, hn]; push_cast; ring) none false
  exact lattice_of (C34_mosaic_vr hs hsub hdiv hh (writtenLayers_core hw) hrp (Prod.ext_iff.2 ⟨rfl, ho⟩)) (fun e' he' => by rw [e1] at he'; cases he'; exact e4) hz

/-! ## the hypotheses can be met -/

private def base : Grid Tile := (demoSR.gridWith demoEnv { alg := .mean, res := some 8, clear := true } none).st
private def changed : Grid Tile := ((base.removePoints "b").st.addPoints ⟨demoFields, demoA⟩ "a" {}).st
private def updated : Grid Tile := (changed.gridWith demoEnv { alg := .mean, res := some 8, regrid := .update } (some 2)).st

/-- a container is removed, another one is added, an update is done by workers, and a BAG is written -/
example : ∃ files, updated.exportRaster demoEnv .bag false (some 8) (some 16) = (updated, files, none) ∧
    RastersOfSoundings updated (CellRule .mean) (Ruled .mean false demoFields none) (expectedBands .bag false false .plain demoFields) ((demoStore.remove "b") ++ [("a", demoA)] : Store).allPts 8 files :=
  C129_rasters_updated_sr (n := 2) (d0 := none) (da := some 2) (a0 := { alg := .mean, res := some 8, clear := true }) (a := { alg := .mean, res := some 8, regrid := .update }) (by norm_num) demoSR_history (.inl rfl) rfl
    (.inr rfl) (.inr rfl) (by norm_num) (by decide +kernel) ((Since.refl.remove "b" (by decide +kernel)).add demoA "a" {} (by decide +kernel)) rfl rfl (by decide +kernel)
    (by decide +kernel) (fun _ => rfl) false (some 16)

private def baseVR : Grid (Grid Tile) := (demoVR.gridWith demoEnv { alg := .shoalest, res := some 4, clear := true } none).st
private def changedVR : Grid (Grid Tile) := ((baseVR.removePoints "b").st.addPoints ⟨demoFields, demoA⟩ "a" {}).st
private def updatedVR : Grid (Grid Tile) := (changedVR.gridWith demoEnv { alg := .shoalest, res := some 4, regrid := .update } none).st

example : ∃ files, updatedVR.exportRaster demoEnv .geotiff true (some 4) none = (updatedVR, files, none) ∧
    RastersOfSoundings updatedVR (CellRule .shoalest) (Ruled .shoalest false demoFields none) (expectedBands .geotiff true false .plain demoFields) ((demoStore.remove "b") ++ [("a", demoA)] : Store).allPts 4 files :=
  C129_rasters_updated_vr (n := 4) (q := 2) (d0 := none) (da := none) (a0 := { alg := .shoalest, res := some 4, clear := true }) (a := { alg := .shoalest, res := some 4, regrid := .update })
    (by norm_num) (by decide +kernel) (by norm_num) demoVR_history (.inr rfl) rfl
    (.inr rfl) (.inr rfl) (by norm_num) (by decide +kernel) ((Since.refl.remove "b" (by decide +kernel)).add demoA "a" {} (by decide +kernel)) rfl rfl (by decide +kernel)
    (by decide +kernel) .geotiff true none

/-- the shoalest layer that is stored after the update -/
example : StoredBySoundings updatedVR .shoalest .depth 4 ((demoStore.remove "b") ++ [("a", demoA)] : Store).allPts ∧ StoredBySoundings updated .mean .density 8 ((demoStore.remove "b") ++ [("a", demoA)] : Store).allPts :=
  ⟨C129_stored_updated_vr (n := 4) (q := 2) (d0 := none) (da := none) (a0 := { alg := .shoalest, res := some 4, clear := true }) (a := { alg := .shoalest, res := some 4, regrid := .update })
    (by norm_num) (by decide +kernel) (by norm_num) demoVR_history (.inr rfl) rfl
    (.inr rfl) (.inr rfl) (by norm_num) (by decide +kernel) ((Since.refl.remove "b" (by decide +kernel)).add demoA "a" {} (by decide +kernel)) rfl rfl (by decide +kernel) (.inl rfl),
  C129_stored_updated_sr (n := 2) (d0 := none) (da := some 2) (a0 := { alg := .mean, res := some 8, clear := true }) (a := { alg := .mean, res := some 8, regrid := .update }) (by norm_num) demoSR_history (.inl rfl) rfl
    (.inr rfl) (.inr rfl) (by norm_num) (by decide +kernel) ((Since.refl.remove "b" (by decide +kernel)).add demoA "a" {} (by decide +kernel)) rfl rfl (by decide +kernel) (.inr (.inl ⟨rfl, rfl⟩))⟩

end Bathy
