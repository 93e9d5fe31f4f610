import Verif.Lemmas.Recorded
import Verif.Lemmas.Export
import Verif.Lemmas.Log
import Verif.Props.Csv
import Verif.Props.Backscatter

/-!
# C76: exported rasters

Model: `Grid.exportRaster` (bathygrid/bgrid.py:2274-2382).
-/

namespace Bathy

section
variable {size sub : ℚ} {bs : Bool} {fl : Fields} {env : Env} {F F' : Family} {s : Bool} {A : Store} {kind : RasterKind} {zUp : Bool} {a : GridCall} {dask : Option Nat}

theorem mul_pos_nat {w r : ℚ} (hw : 0 < w) {m : Nat} (h : w = (m : ℚ) * r) : 0 < r := by
  by_contra hr
  push Not at hr
  have := mul_nonpos_of_nonneg_of_nonpos (Nat.cast_nonneg (α := ℚ) m) hr
  linarith

/-- **C76** right after gridding a single resolution grid with a coordinate system at one resolution that divides the tiles: the export to geotiff or BAG (with the largest size
of a file as given) writes numbered files whose bands have the right names (`Elevation` for heights, `Depth` for depths, the uncertainty that the
algorithm stores; or `Intensity`) and show the stored cells, north up, with the sign that the name promises and 1000000 elsewhere; every stored cell is
in exactly one file; and the grid is left as it is. -/
theorem C76_rasters_sr_partial (hs : 0 < size) {g : Grid Tile} (h : SRHistory env size bs fl F s g A) (hE : g.info.epsg ≠ none) (ha : a.alg.family = some F') (hF : F' = F ∨ a.clear = true)
    (hv : a.regrid = .full ∨ a.clear = true) (hok : (g.gridWith env a dask).err = none) (hk : kind = .bag → bs = false) {r : ℚ} (hr : a.res = some r) {m : Nat} (hm : size = (m : ℚ) * r)
    {res : Option ℚ} (hres : res = none ∨ res = some r) (override : Option ℚ) :
    ∃ per : List (ℚ × List RasterFile), (∀ p ∈ per, p.1 = r) ∧ per ≠ [] ∧ (res = some r → per.length = 1) ∧
      (g.gridWith env a dask).st.exportRaster env kind zUp res override = ((g.gridWith env a dask).st, per.flatMap Prod.snd, none) ∧
      ∀ p ∈ per, RastersRight (g.gridWith env a dask).st (expectedBands kind zUp bs F' fl) p.1 p.2 := by
  have h1 : SRHistory env size bs fl F' s (g.gridWith env a dask).st A := history_after h ha hF hok
  have hlv := Grid.leaves_sr hs h hv hok
  have hi := (sr_inv hs h1).1
  have hA := store_ne (sr_inv hs h).1 hok
  have hr0 := mul_pos_nat hs hm
  obtain ⟨u, i, j, t, ht, hut⟩ := grow_leaf hs (leafNe_tile env F' hs) hi hA
  have hrr : ∀ r' ∈ (g.gridWith env a dask).st.resolutions, r' = r := by
    intro r' hr'
    obtain ⟨u, hu, hrun⟩ := hlv.2 r' hr'
    obtain ⟨-, -, -, -, -, -, h4, -⟩ := leafRun_call hrun hF
    exact h4 r hr
  have hhas : ∀ u, (g.gridWith env a dask).st.Leaf u → u.cells.has r = true := by
    intro u hu
    obtain ⟨r', -, hrun⟩ := hlv.1 u hu
    obtain ⟨-, -, -, -, -, -, h4, -⟩ := leafRun_call hrun hF
    rw [h4 r hr] at hrun
    obtain ⟨-, dn, hd, -⟩ := leafRun_density hs hrun ha hF
    unfold Tile.layerAt at hd
    obtain ⟨ls, hls, -⟩ := Option.bind_eq_some_iff.1 hd
    rw [← Dict.get?_isSome, hls]; rfl
  have hgr : (g.gridWith env a dask).st.resolutions ≠ [] := by
    obtain ⟨r', hr', -⟩ := hlv.1 u ⟨i, j, t, ht, hut⟩
    exact List.ne_nil_of_mem hr'
  obtain ⟨rs, hrs, hrs1, hrs2, hrs3⟩ : ∃ rs : List ℚ, ((res = none ∧ rs = (g.gridWith env a dask).st.resolutions) ∨ ∃ r, res = some r ∧ rs = [r]) ∧ (∀ r' ∈ rs, r' = r) ∧ rs ≠ [] ∧
      (res = some r → rs.length = 1) := by
    rcases hres with e | e
    · exact ⟨_, Or.inl ⟨e, rfl⟩, hrr, hgr, fun h => by rw [e] at h; cases h⟩
    · exact ⟨[r], Or.inr ⟨r, e, rfl⟩, by simp, by simp, fun _ => rfl⟩
  have hnd := (finalNames_expected kind zUp bs F' fl).2.2.1
  have hl : ∀ l ∈ (expectedBands kind zUp bs F' fl).map Prod.snd, l ∈ writtenLayers F' bs fl := fun l h => expected_written h
  obtain ⟨per, p1, p2, p3⟩ := export_ok (env := env) (g := (g.gridWith env a dask).st) (kind := kind) (zUp := zUp) (bs := bs) (F := F') (fl := fl) (by rw [Grid.gridWith_info]; exact hE) hi.backscatter hk
    (fun hb => by
      subst hb
      refine names_grid (Grid.grow_reps hi).2 ⟨i, j, t, ht⟩ ?_
      intro r' c' t' ht'
      obtain ⟨x', y', B, hB⟩ := (Grid.grow_reps hi).1 r' c' t' ht'
      exact namesOk_tile env F' hs hB (fun u hu => by
        obtain ⟨r, -, hrun⟩ := hlv.1 u ⟨r', c', t', ht', hu⟩
        exact leafRun_cells hs hrun ha hF))
    (override := override) hrs (by
      intro zUp' r' hr'
      rw [hrs1 r' hr']
      have h2 := C43_after_gridding_sr hs h ha hF hv hok hl hnd hr hr0 hm (some 1000000) zUp' override
      refine ⟨_, rfl, h2.1, h2.2, ?_, ?_⟩
      · exact chunks_keys (answers_tile env F' hs) (Grid.geoOk_tile env F' hs) hs hi (fun l h => writtenLayers_core (hl l h)) hnd hr0 (geo_of_has hhas) (some 1000000) zUp' override
      · intro c hc ge hge k l hkl
        have := C65_nodata_sr_partial hs h1 (fun l h => writtenLayers_core (hl l h)) hnd hr0 hhas (some 1000000) zUp' override hc hge hkl (Or.inr (fillValue_million _))
        rwa [fillValue_million] at this)
  refine ⟨per, ?_, ?_, ?_, p2, p3⟩
  · intro p hp
    exact hrs1 p.1 (by rw [← p1]; exact List.mem_map.2 ⟨p, hp, rfl⟩)
  · rintro rfl
    exact hrs2 (by rw [← p1]; rfl)
  · intro e
    rw [← hrs3 e, ← p1, List.length_map]

/-- **C76** right after gridding a variable resolution grid of depths with a coordinate system whose resolutions divide the tiles of the subgrids: the same, for each resolution. -/
theorem C76_rasters_vr_partial (hs : 0 < size) (hpow : isPowerOfTwo sub = true) {q : Nat} (hdiv : size = (q : ℚ) * sub) {g : Grid (Grid Tile)}
    (h : VRHistory env size sub false fl F s g A) (hE : g.info.epsg ≠ none) (ha : a.alg.family = some F') (hF : F' = F ∨ a.clear = true) (hv : a.regrid = .full ∨ a.clear = true) (hok : (g.gridWith env a dask).err = none)
    {res : Option ℚ} {rs : List ℚ} (hrs : (res = none ∧ rs = (g.gridWith env a dask).st.resolutions) ∨ ∃ r, res = some r ∧ rs = [r]) (hm : ∀ r ∈ rs, ∃ m : Nat, sub = (m : ℚ) * r)
    (override : Option ℚ) :
    ∃ per : List (ℚ × List RasterFile), per.map Prod.fst = rs ∧
      (g.gridWith env a dask).st.exportRaster env kind zUp res override = ((g.gridWith env a dask).st, per.flatMap Prod.snd, none) ∧
      ∀ p ∈ per, RastersRight (g.gridWith env a dask).st (expectedBands kind zUp false F' fl) p.1 p.2 := by
  have h1 : VRHistory env size sub false fl F' s (g.gridWith env a dask).st A := history_after h ha hF hok
  have hsub := isPowerOfTwo_pos hpow
  have hlv := Grid.leaves_vr hs hpow h hv hok
  have hi := (vr_inv hs hpow h1).1
  have hA := store_ne (vr_inv hs hpow h).1 hok
  have hLt := leafNe_tile env F' (sub := 0) (bs := false) (fl := fl) hsub
  obtain ⟨u, i, j, t, ht, hut⟩ := grow_leaf hs (leafNe_sub (bs := false) hLt hs hpow) hi hA
  have hnd := (finalNames_expected kind zUp false F' fl).2.2.1
  have hl : ∀ l ∈ (expectedBands kind zUp false F' fl).map Prod.snd, l ∈ writtenLayers F' false fl := fun l h => expected_written h
  exact export_ok (env := env) (g := (g.gridWith env a dask).st) (kind := kind) (zUp := zUp) (bs := false) (F := F') (fl := fl) (by rw [Grid.gridWith_info]; exact hE) hi.backscatter (fun _ => rfl)
    (fun _ => by
      refine names_grid (Grid.grow_reps hi).2 ⟨i, j, t, ht⟩ ?_
      intro r' c' t' ht'
      obtain ⟨x', y', B, hB⟩ := (Grid.grow_reps hi).1 r' c' t' ht'
      exact namesOk_sub (namesOk_tile env F' hsub) hLt hs hpow hB (fun u hu => by
        obtain ⟨r, -, hrun⟩ := hlv.1 u ⟨r', c', t', ht', hu⟩
        exact leafRun_cells hsub hrun ha hF))
    (override := override) hrs (by
      intro zUp' r' hr'
      obtain ⟨m, hm'⟩ := hm r' hr'
      have hr0 := mul_pos_nat hsub hm'
      have h2 := C43_after_gridding_vr hs hpow hdiv h ha hF hv hok hl hnd hr0 hm' (some 1000000) zUp' override
      refine ⟨_, rfl, h2.1, h2.2, ?_, ?_⟩
      · exact chunks_keys (Grid.answers_sub (answers_tile env F' hsub) hs hpow hdiv) (Grid.geoOk_sub hs hpow) hs hi (fun l h => writtenLayers_core (hl l h)) hnd hr0
          (fun _ _ _ ht => by obtain ⟨x, y, B, hB⟩ := (Grid.grow_reps hi).1 _ _ _ ht; exact Grid.geo_sub hs hpow hB r') (some 1000000) zUp' override
      · intro c hc ge hge k l hkl
        have := C65_nodata_vr_partial hs hpow hdiv h1 (fun l h => writtenLayers_core (hl l h)) hnd hr0 (some 1000000) zUp' override hc hge hkl (Or.inr (fillValue_million _))
        rwa [fillValue_million] at this)

/-- **C76 fails** for every grid to which no coordinate system was given: no raster is written, and the first chunk raises AttributeError.  (`add_points`
takes soundings without coordinate system.) -/
theorem C76_fails_no_crs {τ : Type} [LayerLike τ] [LayerNames τ] (env : Env) (g : Grid τ) (hE : g.info.epsg = none) (kind : RasterKind) (zUp : Bool) (res override : Option ℚ) :
    (g.exportRaster env kind zUp res override).2.1 = [] ∧
    ∀ names, finalNames kind (decide (kind = .geotiff ∧ g.isBackscatter = true)) (kind.up zUp) (g.rasterLayers kind) = .ok names → ∀ r,
      (res = some r ∨ res = none ∧ g.resolutions.head? = some r) → (g.getChunks env r (g.rasterLayers kind) (some 1000000) (kind.up zUp) override true).st.2 ≠ [] →
      (g.exportRaster env kind zUp res override).2.2 = some .attributeError := by
  have hw : ∀ r names k cs, (writeRasters none r names k cs).1 = [] ∧ (cs ≠ [] → (writeRasters none r names k cs).2 = some .attributeError) := by
    intro r names k cs
    cases cs with
    | nil => exact ⟨rfl, fun h => absurd rfl h⟩
    | cons c cs => exact ⟨rfl, fun _ => rfl⟩
  have hl : ∀ layers names up rs (g : Grid τ) fs, (Grid.rasterLoop env none layers names up override rs g fs).2.1 = fs := by
    intro layers names up rs
    induction rs with
    | nil => intro g fs; rfl
    | cons r rs ih =>
      intro g fs
      unfold Grid.rasterLoop
      simp only [(hw r names 1 _).1, List.append_nil]
      split
      · rfl
      · split
        · rfl
        · exact ih _ _
  constructor
  · unfold Grid.exportRaster
    simp only
    split
    · rfl
    · rw [hE]; exact hl _ _ _ _ _ _
  · intro names hn r hr hc
    have hone : ∀ rs, (Grid.rasterLoop env none (g.rasterLayers kind) names (kind.up zUp) override (r :: rs) g []).2.2 = some .attributeError := by
      intro rs
      unfold Grid.rasterLoop
      simp only [(hw r names 1 _).2 hc]
    unfold Grid.exportRaster
    simp only [hn, hE]
    rcases hr with rfl | ⟨rfl, hr⟩
    · exact hone []
    · obtain ⟨rs, hrs⟩ : ∃ rs, g.resolutions = r :: rs := by
        cases hg : g.resolutions with
        | nil => rw [hg] at hr; cases hr
        | cons a l => rw [hg] at hr; cases hr; exact ⟨l, rfl⟩
      simp only [hrs]
      exact hone rs

/-- a grid that wrote a raster has a coordinate system -/
theorem crs_of_file {τ : Type} [GridLike τ] [LawfulGrid τ] [LayerLike τ] [LayerNames τ] {env : Env} {g : Grid τ} {a : GridCall} {dask : Option Nat} {kind : RasterKind} {zUp : Bool}
    {res override : Option ℚ} {f : RasterFile} (hf : f ∈ ((g.gridWith env a dask).st.exportRaster env kind zUp res override).2.1) : g.info.epsg ≠ none := by
  intro hE
  rw [(C76_fails_no_crs env _ (by rw [Grid.gridWith_info]; exact hE) kind zUp res override).1] at hf
  cases hf

/-- **C76 fails** for variable resolution grids of backscatter: no file is written, whatever was gridded. -/
theorem C76_fails_vr (hs : 0 < size) (hpow : isPowerOfTwo sub = true) {q : Nat} (hdiv : size = (q : ℚ) * sub) {g : Grid (Grid Tile)}
    (h : VRHistory env size sub true fl F s g A) {res : Option ℚ} (hres : ∀ r, res = some r → 0 < r) (override : Option ℚ) :
    (g.exportRaster env .geotiff zUp res override).2.1 = [] := by
  have hi := (vr_inv hs hpow h).1
  have hno : ∀ r x y z, ¬ StoredCell g .intensity r x y z := by
    rintro r x y z ⟨t, ls, b, i, j, ht, hls, hb, -⟩
    have := (C63_fails_vr hs hpow h ht r ls hls).2
    rw [hb] at this
    cases this
  have hch : ∀ r, 0 < r → (g.getChunks env r [.intensity] (some 1000000) zUp override true).st.2 = [] ∧
      ((g.getChunks env r [.intensity] (some 1000000) zUp override true).err = none → (g.getChunks env r [.intensity] (some 1000000) zUp override true).st.1 = g) := by
    intro r hr
    have := C43_georeferenced_vr_partial hs hpow hdiv h (layers := [.intensity]) (by simp [Layer.isCore]) (by simp) hr (some 1000000) zUp override
    refine ⟨?_, fun he => (this.all he).1⟩
    rw [List.eq_nil_iff_forall_not_mem]
    intro c hc
    obtain ⟨l, hl, x, y, z, hz, -⟩ := this.some c hc
    rw [List.mem_singleton] at hl
    subst hl
    exact hno r x y z hz
  have hloop : ∀ rs : List ℚ, (∀ r ∈ rs, 0 < r) → (Grid.rasterLoop env g.info.epsg [.intensity] ["Intensity"] zUp override rs g []).2.1 = [] := by
    intro rs
    induction rs with
    | nil => intro _; rfl
    | cons r rs ih =>
      intro hrs
      obtain ⟨h1, h2⟩ := hch r (hrs r (by simp))
      unfold Grid.rasterLoop
      simp only [h1, writeRasters, List.append_nil]
      split
      · rfl
      · rename_i he
        rw [h2 he]
        exact ih (fun r hr => hrs r (by simp [hr]))
  unfold Grid.exportRaster
  have hb : g.isBackscatter = true := hi.backscatter
  have hlay : g.rasterLayers .geotiff = [.intensity] := by simp [Grid.rasterLayers, hb]
  rw [hlay]
  have hfin : finalNames .geotiff true zUp [.intensity] = .ok ["Intensity"] := by cases zUp <;> decide +kernel
  simp only [hb, and_self, decide_true, RasterKind.up, hfin]
  cases res with
  | none => exact hloop _ (fun r hr => isPowerOfTwo_pos ((Grid.resOk_history (Grid.resOk_blank _ _ _ _ _ _ _ _) h).res r hr))
  | some r => exact hloop _ (by intro r' hr'; rw [List.mem_singleton] at hr'; subst hr'; exact hres _ rfl)

end

private def noCrs : Grid Tile := (((newSR 16 false).addPoints ⟨demoFields, demoA⟩ "a" {}).st.gridWith demoEnv { alg := .mean, res := some 8 } none).st

/-- soundings without coordinate system are gridded and cannot be exported -/
example : noCrs.info.epsg = none ∧ noCrs.resolutions = [8] ∧ (noCrs.exportRaster demoEnv .geotiff true none none).2 = ([], some .attributeError) ∧
    (noCrs.getChunks demoEnv 8 (noCrs.rasterLayers .geotiff) (some 1000000) true none true).st.2.length = 1 := by decide +kernel

/-- the demo grids have a coordinate system -/
example : demoSR.info.epsg ≠ none ∧ demoVR.info.epsg ≠ none := by decide +kernel

/-- the examples of `C76_rasters_sr_partial` and `C76_rasters_vr_partial`: several files, a gap, and both kinds -/
example : SRHistory demoEnv 16 false demoFields .plain false demoSR demoStore ∧ (demoSR.gridWith demoEnv { alg := .mean, res := some 8 } none).err = none ∧
    (16 : ℚ) = ((2 : Nat) : ℚ) * 8 ∧
    ((demoSR.gridWith demoEnv { alg := .mean, res := some 8 } none).st.exportRaster demoEnv .bag false none (some 16)).2.1.map
        (fun f => (f.number, f.geo.x0, f.geo.y0)) = [(1, 0, 16), (2, 16, 32), (3, 32, 48), (4, -32, 80)] ∧
    ((demoSR.gridWith demoEnv { alg := .mean, res := some 8 } none).st.exportRaster demoEnv .bag false none (some 16)).2.1.map (fun f => f.bands.map (fun b => (b.1, b.2.get? 1 0))) =
      [[("Elevation", some (some (-25 / 2))), ("Uncertainty", some (some 1))], [("Elevation", some (some (-9))), ("Uncertainty", some (some 1))],
       [("Elevation", some (some 1000000)), ("Uncertainty", some (some 1000000))], [("Elevation", some (some 1000000)), ("Uncertainty", some (some 1000000))]] ∧
    VRHistory demoEnv 32 16 false demoFields .plain false demoVR demoStore ∧ (demoVR.gridWith demoEnv { alg := .mean, res := some 8 } none).err = none ∧
    (demoVR.gridWith demoEnv { alg := .mean, res := some 8 } none).st.resolutions = [8] ∧
    ((demoVR.gridWith demoEnv { alg := .mean, res := some 8 } none).st.exportRaster demoEnv .geotiff true none (some 32)).2.1.map
        (fun f => (f.number, f.geo.x0, f.geo.y0, f.bands.map Prod.fst)) =
      [(1, 0, 32, ["Elevation", "Vertical Uncertainty"]), (2, 32, 64, ["Elevation", "Vertical Uncertainty"]), (3, -32, 96, ["Elevation", "Vertical Uncertainty"])] := by
  refine ⟨demoSR_history, by decide +kernel, by norm_num, by decide +kernel, by decide +kernel, demoVR_history, by decide +kernel, by decide +kernel, by decide +kernel⟩

/-- **C76 is violated**.  Variable resolution backscatter: the export raises ValueError.  A single resolution grid whose first tile was emptied and
filled again after gridding: `layer_names` are those of the first tile, which are none; a positive up export raises ValueError (`index('Depth')`), and
without that the export ends without an exception and without a file, although cells are stored. -/
theorem C76_violated :
    (VRHistory demoEnv 32 16 true demoFields .plain false backVR [("a", demoA)] ∧ backVR.resolutions = [4] ∧ (∀ zUp, (backVR.exportRaster demoEnv .geotiff zUp none none).2 = ([], some .valueError))) ∧
    (SRHistory demoEnv 16 false demoFields .plain false shiftGrid [("b", [⟨20, 21, 12, 1, 1⟩]), ("c", [⟨3, 6, 11, 1, 1⟩])] ∧ StoredCell shiftGrid .depth 8 16 16 12 ∧
      (shiftGrid.exportRaster demoEnv .geotiff true none none).2 = ([], some .valueError) ∧ (shiftGrid.exportRaster demoEnv .bag false none none).2 = ([], some .valueError) ∧
      (shiftGrid.exportRaster demoEnv .geotiff false none none).2 = ([], none) ∧ shiftGrid.resolutions = [8]) := by
  refine ⟨⟨backVR_history, by decide +kernel, by intro z; cases z <;> decide +kernel⟩, shiftGrid_history, ?_, by decide +kernel, by decide +kernel, by decide +kernel, by decide +kernel⟩
  obtain ⟨t, ht, hP⟩ := Grid.exists_tileAt_any (g := shiftGrid) (r := 1) (c := 1) (fun t => decide (t.minX = 16) && decide (t.minY = 16) &&
    (t.cells.get? 8).any (fun ls => (ls.get? .depth).any (fun a => decide (a.get? 0 0 = some (some 12))))) (by decide +kernel)
  simp only [Bool.and_eq_true, decide_eq_true_eq] at hP
  obtain ⟨ls, hls, h2⟩ := (Option.any_eq_true _ _).1 hP.2
  obtain ⟨a, ha, h3⟩ := (Option.any_eq_true _ _).1 h2
  refine Grid.stored_grid.2 ⟨1, 1, t, ht, t, ls, a, 0, 0, rfl, hls, ha, of_decide_eq_true h3, ?_, ?_⟩
  · rw [hP.1.1]; norm_num
  · rw [hP.1.2]; norm_num

end Bathy
