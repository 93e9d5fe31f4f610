import Verif.Props.ExportSurface

/-!
# C76: the export of rasters without coordinate system raises

`C76_fails_no_crs` says that no file is written; here the exception, for all grids that have just been gridded.
-/

namespace Bathy
open Grid

variable {env : Env} {r : ℚ} {size sub : ℚ} {bs : Bool} {fl : Fields} {F : Family} {s : Bool} {A : Store} {a : GridCall} {dask : Option Nat} {kind : RasterKind} {zUp : Bool}

private theorem main_exported (hk : kind = .bag → bs = false) : mainLayer bs ∈ (expectedBands kind zUp bs .plain fl).map Prod.snd := by
  cases bs <;> cases kind <;> simp_all [expectedBands, mainLayer]

/-- the names of the bands of a grid with the expected layers -/
private theorem bands_ok {τ : Type} [LayerNames τ] {g : Grid τ} (hb : g.isBackscatter = bs) (hk : kind = .bag → bs = false)
    (hn : bs = false → g.layerNames.filter exported = (writtenLayers .plain false fl).filter exported) :
    g.rasterLayers kind = (expectedBands kind zUp bs .plain fl).map Prod.snd ∧
      ∃ names, finalNames kind (decide (kind = .geotiff ∧ g.isBackscatter = true)) (kind.up zUp) (g.rasterLayers kind) = .ok names := by
  have hlay : g.rasterLayers kind = (expectedBands kind zUp bs .plain fl).map Prod.snd := by
    unfold Grid.rasterLayers
    cases bs with
    | true =>
      have : kind = .geotiff := by cases kind <;> simp_all
      subst this
      simp [hb, expectedBands]
    | false =>
      rw [if_neg (by simp [hb])]
      exact (hn rfl).trans (exported_expected kind zUp .plain fl)
  have hint : decide (kind = .geotiff ∧ g.isBackscatter = true) = bs := by
    cases bs with
    | true =>
      have : kind = .geotiff := by cases kind <;> simp_all
      simp [hb, this]
    | false => simp [hb]
  refine ⟨hlay, (expectedBands kind zUp bs .plain fl).map Prod.fst, ?_⟩
  rw [hint, hlay]
  exact (finalNames_expected kind zUp bs .plain fl).1

/-- **C76 fails** (single resolution grids without coordinate system): after gridding all tiles by mean or shoalest the export of rasters writes no file and raises AttributeError -/
theorem C76_no_crs_raises_sr (hs : 0 < size) {g : Grid Tile} (h : SRHistory env size bs fl F s g A) (hE : g.info.epsg = none) (ha : a.alg = .mean ∨ a.alg = .shoalest)
    (hF : F = .plain ∨ a.clear = true) (hv : a.regrid = .full ∨ a.clear = true) (hr : a.res = some r) {n : Nat} (hn : size = n * r) (hok : (g.gridWith env a dask).err = none)
    (hk : kind = .bag → bs = false) (zUp : Bool) (override : Option ℚ) :
    ((g.gridWith env a dask).st.exportRaster env kind zUp (some r) override).2 = ([], some .attributeError) := by
  have hfam : a.alg.family = some .plain := by rcases ha with e | e <;> rw [e] <;> rfl
  have h1 : SRHistory env size bs fl .plain s (g.gridWith env a dask).st A := history_after h hfam (hF.imp Eq.symm id) hok
  have hlv := Grid.leaves_sr hs h hv hok
  have hi := (sr_inv hs h1).1
  have hA := store_ne (sr_inv hs h).1 hok
  have hr0 := mul_pos_nat hs hn
  have hhas : ∀ u, (g.gridWith env a dask).st.Leaf u → u.cells.has r = true := by
    intro u hu
    obtain ⟨r', -, hrun⟩ := hlv.1 u hu
    obtain ⟨-, -, -, -, -, -, h4, -⟩ := leafRun_call (F' := .plain) hrun (hF.imp Eq.symm id)
    rw [h4 r hr] at hrun
    obtain ⟨-, dn, hd, -⟩ := leafRun_density hs hrun hfam (hF.imp Eq.symm id)
    unfold Tile.layerAt at hd
    obtain ⟨ls, hls, -⟩ := Option.bind_eq_some_iff.1 hd
    rw [← Dict.get?_isSome, hls]; rfl
  have hcells : ∀ u, (g.gridWith env a dask).st.Leaf u → u.cells ≠ [] := by
    intro u hu hnil
    have := hhas u hu
    rw [hnil] at this
    cases this
  obtain ⟨u, i, j, t, ht, hut⟩ := grow_leaf hs (leafNe_tile env .plain hs) hi hA
  obtain ⟨hlay, names, hnames⟩ := bands_ok (g := (g.gridWith env a dask).st) (kind := kind) (zUp := zUp) (fl := fl) hi.backscatter hk (fun hb => by
    subst hb
    refine names_grid (Grid.grow_reps hi).2 ⟨i, j, t, ht⟩ ?_
    intro r' c' t' ht'
    obtain ⟨x', y', B, hB⟩ := (Grid.grow_reps hi).1 r' c' t' ht'
    exact namesOk_tile env .plain hs hB (fun u hu => hcells u ⟨r', c', t', ht', hu⟩))
  obtain ⟨k1, k2⟩ := C76_fails_no_crs env (g.gridWith env a dask).st (by rw [Grid.gridWith_info]; exact hE) kind zUp (some r) override
  have hl : ∀ l ∈ (g.gridWith env a dask).st.rasterLayers kind, l ∈ writtenLayers .plain bs fl := by rw [hlay]; exact fun l h => expected_written h
  have hnd : ((g.gridWith env a dask).st.rasterLayers kind).Nodup := by rw [hlay]; exact (finalNames_expected kind zUp bs .plain fl).2.2.1
  have hcore := fun l h => writtenLayers_core (hl l h)
  refine Prod.ext k1 (k2 names hnames r (.inl rfl) ?_)
  have hgood : ((g.gridWith env a dask).st.getChunks env r ((g.gridWith env a dask).st.rasterLayers kind) (some 1000000) (kind.up zUp) override true).err = none := by
    rcases hi.body with ⟨h2, -⟩ | ⟨-, i', j', nx, ny, T, hf, he⟩
    · exact absurd h2 hA
    · exact Grid.chunks_ok (retrieves_tile env .plain hs) (answers_tile env .plain hs) (Grid.geoOk_tile env .plain hs) hs hf.toReady
        hcells hl hcore hnd hr0 hn hn (some 1000000) _ true (geo_of_has hhas) ⟨i, j, t, ht⟩ override
  obtain ⟨p, hp⟩ := List.exists_mem_of_ne_nil _ (allPts_ne hA (sr_inv hs h).1.ne)
  obtain ⟨x, y, z, hz, -⟩ := (C129_stored_sr hs h ha hF hv hr hn hok (l := mainLayer bs) (.inl rfl)).all p hp
  obtain ⟨c, hc, -⟩ := ((C43_georeferenced_sr_partial hs h1 hcore hnd hr0 hhas (some 1000000) (kind.up zUp) override).all hgood).2 (mainLayer bs) (by rw [hlay]; exact main_exported hk) x y z hz
  exact List.ne_nil_of_mem hc

/-- **C76 fails** (variable resolution grids of depths without coordinate system): the same -/
theorem C76_no_crs_raises_vr (hs : 0 < size) (hsub : isPowerOfTwo sub = true) {q : Nat} (hdiv : size = (q : ℚ) * sub) {g : Grid (Grid Tile)}
    (h : VRHistory env size sub false fl F s g A) (hE : g.info.epsg = none) (ha : a.alg = .mean ∨ a.alg = .shoalest)
    (hF : F = .plain ∨ a.clear = true) (hv : a.regrid = .full ∨ a.clear = true) (hr : a.res = some r) {n : Nat} (hn : sub = n * r) (hok : (g.gridWith env a dask).err = none)
    (kind : RasterKind) (zUp : Bool) (override : Option ℚ) :
    ((g.gridWith env a dask).st.exportRaster env kind zUp (some r) override).2 = ([], some .attributeError) := by
  have hfam : a.alg.family = some .plain := by rcases ha with e | e <;> rw [e] <;> rfl
  have h1 : VRHistory env size sub false fl .plain s (g.gridWith env a dask).st A := history_after h hfam (hF.imp Eq.symm id) hok
  have hp0 := isPowerOfTwo_pos hsub
  have hlv := Grid.leaves_vr hs hsub h hv hok
  have hi := (vr_inv hs hsub h1).1
  have hA := store_ne (vr_inv hs hsub h).1 hok
  have hr0 := mul_pos_nat hp0 hn
  have hcells : ∀ u, (g.gridWith env a dask).st.Leaf u → u.cells ≠ [] := by
    intro u hu
    obtain ⟨r', -, hrun⟩ := hlv.1 u hu
    exact leafRun_cells hp0 hrun hfam (hF.imp Eq.symm id)
  have hLt := leafNe_tile env .plain (sub := 0) (bs := false) (fl := fl) hp0
  have hreps := (Grid.grow_reps hi).1
  obtain ⟨u, i, j, t, ht, hut⟩ := grow_leaf hs (leafNe_sub (bs := false) hLt hs hsub) hi hA
  obtain ⟨hlay, names, hnames⟩ := bands_ok (g := (g.gridWith env a dask).st) (kind := kind) (zUp := zUp) (fl := fl) hi.backscatter (fun _ => rfl) (fun _ => by
    refine names_grid (Grid.grow_reps hi).2 ⟨i, j, t, ht⟩ ?_
    intro r' c' t' ht'
    obtain ⟨x', y', B, hB⟩ := hreps r' c' t' ht'
    exact namesOk_sub (namesOk_tile env .plain hp0) hLt hs hsub hB (fun u hu => hcells u ⟨r', c', t', ht', hu⟩))
  obtain ⟨k1, k2⟩ := C76_fails_no_crs env (g.gridWith env a dask).st (by rw [Grid.gridWith_info]; exact hE) kind zUp (some r) override
  have hl : ∀ l ∈ (g.gridWith env a dask).st.rasterLayers kind, l ∈ writtenLayers .plain false fl := by rw [hlay]; exact fun l h => expected_written h
  have hnd : ((g.gridWith env a dask).st.rasterLayers kind).Nodup := by rw [hlay]; exact (finalNames_expected kind zUp false .plain fl).2.2.1
  have hcore := fun l h => writtenLayers_core (hl l h)
  refine Prod.ext k1 (k2 names hnames r (.inl rfl) ?_)
  have hgood : ((g.gridWith env a dask).st.getChunks env r ((g.gridWith env a dask).st.rasterLayers kind) (some 1000000) (kind.up zUp) override true).err = none := by
    rcases hi.body with ⟨h2, -⟩ | ⟨-, i', j', nx, ny, T, hf, he⟩
    · exact absurd h2 hA
    · exact Grid.chunks_ok (n := q * n) (Grid.retrieves_sub (retrieves_tile env .plain (sub := 0) hp0) (answers_tile env .plain hp0)
        (fun {x y t A} _ hc => by
          have hc : t.cells ≠ [] := hc t rfl
          show Except.ok (!t.cells.isEmpty) = _
          cases he : t.cells with
          | nil => exact absurd he hc
          | cons p ps => rfl) (fun l hl => writtenLayers_core hl) hs hsub hdiv) (Grid.answers_sub (answers_tile env .plain hp0) hs hsub hdiv) (Grid.geoOk_sub hs hsub) hs hf.toReady
        hcells hl hcore hnd hr0 hn (by rw [hdiv, hn]; push_cast; ring) (some 1000000) _ true
        (fun _ _ _ ht => by obtain ⟨x, y, B, hB⟩ := hreps _ _ _ ht; exact Grid.geo_sub hs hsub hB r) ⟨i, j, t, ht⟩ override
  obtain ⟨p, hp⟩ := List.exists_mem_of_ne_nil _ (allPts_ne hA (vr_inv hs hsub h).1.ne)
  obtain ⟨x, y, z, hz, -⟩ := (C129_stored_vr hs hsub hdiv h ha hF hv hr hn hok (l := mainLayer false) (.inl rfl)).all p hp
  obtain ⟨c, hc, -⟩ := ((C43_georeferenced_vr_partial hs hsub hdiv h1 hcore hnd hr0 (some 1000000) (kind.up zUp) override).all hgood).2 (mainLayer false)
    (by rw [hlay]; exact main_exported (fun _ => rfl)) x y z hz
  exact List.ne_nil_of_mem hc

/-! ## the hypotheses can be met -/

private def plainSR : Grid Tile := ((newSR 16 false).addPoints ⟨{}, [⟨1, 1, 5, 1, 1⟩, ⟨17, 1, 6, 1, 1⟩]⟩ "a" {}).st
private def plainVR : Grid (Grid Tile) := ((newVR 32 16 false).addPoints ⟨{}, [⟨1, 1, 5, 1, 1⟩, ⟨47, 1, 6, 1, 1⟩]⟩ "a" {}).st

/-- soundings without coordinate system -/
example : ((plainSR.gridWith demoEnv { alg := .mean, res := some 8 } none).st.exportRaster demoEnv .bag true (some 8) none).2 = ([], some .attributeError) :=
  C76_no_crs_raises_sr (n := 2) (by norm_num) ((GridHistory.new .plain).add _ "a" {} (by decide +kernel)) (by decide +kernel) (.inl rfl) (.inl rfl) (.inl rfl) rfl (by norm_num) (by decide +kernel) (fun _ => rfl) true none

example : ((plainVR.gridWith demoEnv { alg := .shoalest, res := some 8 } (some 2)).st.exportRaster demoEnv .geotiff false (some 8) (some 32)).2 = ([], some .attributeError) :=
  C76_no_crs_raises_vr (n := 2) (q := 2) (by norm_num) (by decide +kernel) (by norm_num) ((GridHistory.new .plain).add _ "a" {} (by decide +kernel)) (by decide +kernel) (.inr rfl) (.inl rfl) (.inl rfl) rfl
    (by norm_num) (by decide +kernel) .geotiff false (some 32)

end Bathy
